import Verif.Model.Panels
import Verif.Props.Influx

/-!
# The panels of the dashboard

* C135: the dashboard shows what the meter has counted.
-/

namespace Wifinfo
open Spec

/-! ## The specification -/

namespace Spec

/-- The measures come from one meter, in the order of their dates. -/
def OneMeter (ms : List ConsoPoint) : Prop := (∀ x ∈ ms, ∀ y ∈ ms, x.host = y.host) ∧ ms.Pairwise fun x y => x.time ≤ y.time

/-- The value grows with time. -/
def Grows (f : ConsoPoint → Int) (db : List ConsoPoint) : Prop := ∀ x ∈ db, ∀ y ∈ db, x.time ≤ y.time → f x ≤ f y

/-- What a curve of a rate by `unit` seconds adds up to, each value being that of the time since the point before. -/
def addUp (unit : Nat) : Nat → List (Nat × Rat) → Rat
  | _, [] => 0
  | t, p :: l => p.2 * (((p.1 : Rat) - (t : Rat)) / (unit : Rat)) + addUp unit p.1 l

/-- The price of one kWh with taxes: the energy, the tax of the town, the contribution, and 20 % of VAT. -/
def priceHc : Rat := (0.0778 + 0.00969 + 0.02250) * 1.2
def priceHp : Rat := (0.1103 + 0.00969 + 0.02250) * 1.2

end Spec

/-! ## The current values -/

theorem storeAll_snoc (ms : List ConsoPoint) (m : ConsoPoint) : storeAll (ms ++ [m]) = storeMeasure (storeAll ms) m := by
  simp [storeAll, List.foldl_append]

theorem storeAll_mem (ms : List ConsoPoint) : ∀ x ∈ storeAll ms, x ∈ ms := by
  induction ms using snoc_induction with
  | h0 => intro x h; exact h
  | h1 ms m ih =>
    intro x h
    rw [storeAll_snoc, storeMeasure] at h
    rcases List.mem_append.1 h with h | h
    · exact List.mem_append_left _ (ih x (List.mem_filter.1 h).1)
    · exact List.mem_append_right _ h

theorem later_last (f : ConsoPoint → Int) {l : List ConsoPoint} {m : ConsoPoint} (h : ∀ x ∈ l, x.time < m.time) :
    (l ++ [m]).foldl (later f) none = some m := by
  have key : ∀ l : List ConsoPoint, ∀ b, l.foldl (later f) none = some b → b ∈ l := by
    intro l
    induction l using snoc_induction with
    | h0 => intro b h; cases h
    | h1 l x ih =>
      intro b h
      rw [List.foldl_append, List.foldl_cons, List.foldl_nil] at h
      unfold later at h
      split at h
      · cases h; simp
      · rename_i c hc
        split at h
        · cases h; simp
        · cases h; exact List.mem_append_left _ (ih _ hc)
  rw [List.foldl_append, List.foldl_cons, List.foldl_nil]
  cases hb : l.foldl (later f) none with
  | none => rfl
  | some b =>
    unfold later
    simp only
    rw [if_pos (.inl (h b (key l b hb)))]

/-- **C135, the current values.**  For every sequence of measures of one meter, in the order of their dates: the panel shows the value of
the last one, if it is less than one hour old, and nothing otherwise. -/
theorem c135_current_partial (f : ConsoPoint → Int) (now : Nat) {ms : List ConsoPoint} {m : ConsoPoint} (h : OneMeter (ms ++ [m])) :
    currentPanel f now (storeAll (ms ++ [m])) = if now < m.time + 3600 then some (f m) else none := by
  have ht : ∀ x ∈ ms, x.time ≤ m.time := fun x hx => (List.pairwise_append.1 h.2).2.2 x hx m (by simp)
  have hlt : ∀ x ∈ (storeAll ms).filter (fun x => !(x.host == m.host && x.time == m.time)), x.time < m.time := by
    intro x hx
    obtain ⟨h1, h2⟩ := List.mem_filter.1 hx
    have h1 := storeAll_mem ms x h1
    have := h.1 x (List.mem_append_left _ h1) m (by simp)
    have := ht x h1
    simp only [Bool.not_eq_true', Bool.and_eq_false_iff, beq_eq_false_iff_ne, ne_eq] at h2
    rcases h2 with h2 | h2
    · exact absurd ‹x.host = m.host› h2
    · omega
  rw [storeAll_snoc, storeMeasure, currentPanel, List.filter_append]
  split
  · rename_i hn
    rw [List.filter_cons_of_pos (by simpa using hn), List.filter_nil,
      later_last f fun x hx => hlt x (List.mem_filter.1 hx).1]
    rfl
  · rename_i hn
    rw [List.filter_cons_of_neg (by simpa using hn), List.filter_nil, List.append_nil, List.filter_eq_nil_iff.2]
    · rfl
    · intro x hx h'
      have := hlt x hx
      have h' : now < x.time + 3600 := by simpa using h'
      omega

/-! ## The curves -/

theorem derivative_addUp {unit : Nat} (hu : 0 < unit) : ∀ (l : List (Nat × Rat)) (x : Nat × Rat),
    (x :: l).Pairwise (fun p q => p.1 < q.1) →
    addUp unit x.1 (derivativeOf unit (x :: l)) = ((x :: l).getLast (by simp)).2 - x.2
  | [], x, _ => by simp [derivativeOf, addUp, Rat.sub_self]
  | y :: l, x, h => by
    obtain ⟨h1, h2⟩ := List.pairwise_cons.1 h
    have lt : x.1 < y.1 := h1 y List.mem_cons_self
    have ih := derivative_addUp hu l y h2
    rw [derivativeOf, addUp, ih]
    have e1 : ((y.1 : Rat) - (x.1 : Rat)) ≠ 0 := by
      have : (x.1 : Rat) < (y.1 : Rat) := by exact_mod_cast lt
      grind
    have e2 : (unit : Rat) ≠ 0 := by
      have : ((0 : Nat) : Rat) < (unit : Rat) := by exact_mod_cast hu
      grind
    rw [List.getLast_cons (List.cons_ne_nil y l)]
    grind

theorem means_sorted (f : ConsoPoint → Int) {w : Nat} (hw : 0 < w) (a b : Nat) (db : List ConsoPoint) :
    (meansOf f w a b db).Pairwise fun p q => p.1 < q.1 := by
  unfold meansOf
  refine List.Pairwise.filterMap _ ?_ (List.pairwise_lt_range (n := b / w + 1))
  intro k k' hk p hp q hq
  split at hp
  · cases hp
  · split at hq
    · cases hq
    · cases hp
      cases hq
      exact (Nat.mul_lt_mul_right hw).2 hk

/-- The value of a point of the curve of means. -/
theorem means_mem {f : ConsoPoint → Int} {w a b : Nat} {db : List ConsoPoint} {p : Nat × Rat} (h : p ∈ meansOf f w a b db) :
    ∃ k, p.1 = k * w ∧ interval w a b db k ≠ [] ∧ p.2 = meanOf f (interval w a b db k) := by
  obtain ⟨k, -, hk⟩ := List.mem_filterMap.1 h
  split at hk
  · cases hk
  · rename_i h0
    cases hk
    exact ⟨k, rfl, h0, rfl⟩

theorem interval_mem {w a b : Nat} {db : List ConsoPoint} {k : Nat} {m : ConsoPoint} :
    m ∈ interval w a b db k ↔ m ∈ db ∧ a ≤ m.time ∧ m.time ≤ b ∧ m.time / w = k := by
  simp [interval]

theorem mean_mem {f : ConsoPoint → Int} {w a b : Nat} {db : List ConsoPoint} {m : ConsoPoint} (h : m ∈ db) (ha : a ≤ m.time)
    (hb : m.time ≤ b) : (m.time / w * w, meanOf f (interval w a b db (m.time / w))) ∈ meansOf f w a b db := by
  refine List.mem_filterMap.2 ⟨m.time / w, List.mem_range.2 (Nat.lt_succ_of_le (Nat.div_le_div_right hb)), ?_⟩
  rw [if_neg fun h0 => List.ne_nil_of_mem (interval_mem.2 ⟨h, ha, hb, rfl⟩) h0]

theorem sumOf_le {c : Int} : ∀ l : List Int, (∀ x ∈ l, x ≤ c) → l.sum ≤ l.length * c
  | [], _ => by simp
  | x :: l, h => by
    have := sumOf_le l fun y hy => h y (List.mem_cons_of_mem _ hy)
    have := h x List.mem_cons_self
    rw [List.sum_cons, List.length_cons]
    have e : ((l.length + 1 : Nat) : Int) * c = l.length * c + c := by rw [Int.natCast_add, Int.add_mul]; simp
    rw [e]
    omega

theorem le_sumOf {c : Int} : ∀ l : List Int, (∀ x ∈ l, c ≤ x) → l.length * c ≤ l.sum
  | [], _ => by simp
  | x :: l, h => by
    have := le_sumOf l fun y hy => h y (List.mem_cons_of_mem _ hy)
    have := h x List.mem_cons_self
    rw [List.sum_cons, List.length_cons]
    have e : ((l.length + 1 : Nat) : Int) * c = l.length * c + c := by rw [Int.natCast_add, Int.add_mul]; simp
    rw [e]
    omega

theorem length_pos' {l : List ConsoPoint} (h : l ≠ []) : (0 : Rat) < (l.length : Rat) := by
  have : 0 < l.length := List.length_pos_iff.2 h
  exact_mod_cast this

/-- A mean is not above a bound of the values, nor below one. -/
theorem mean_le {f : ConsoPoint → Int} {l : List ConsoPoint} (h : l ≠ []) {c : Int} (hc : ∀ m ∈ l, f m ≤ c) : meanOf f l ≤ c := by
  have h1 := sumOf_le (l.map f) (c := c) fun x hx => by obtain ⟨m, hm, rfl⟩ := List.mem_map.1 hx; exact hc m hm
  rw [List.length_map] at h1
  have h2 : (((l.map f).sum : Int) : Rat) ≤ (l.length : Rat) * (c : Rat) := by exact_mod_cast h1
  have := length_pos' h
  unfold meanOf
  rw [← Rat.not_lt, Rat.lt_div_iff this]
  grind

theorem le_mean {f : ConsoPoint → Int} {l : List ConsoPoint} (h : l ≠ []) {c : Int} (hc : ∀ m ∈ l, c ≤ f m) : c ≤ meanOf f l := by
  have h1 := le_sumOf (l.map f) (c := c) fun x hx => by obtain ⟨m, hm, rfl⟩ := List.mem_map.1 hx; exact hc m hm
  rw [List.length_map] at h1
  have h2 : (l.length : Rat) * (c : Rat) ≤ (((l.map f).sum : Int) : Rat) := by exact_mod_cast h1
  have := length_pos' h
  unfold meanOf
  rw [← Rat.not_lt, Rat.div_lt_iff this]
  grind

/-- The means of a value that grows grow. -/
theorem means_grow {f : ConsoPoint → Int} {w : Nat} (hw : 0 < w) {a b : Nat} {db : List ConsoPoint} (hg : Grows f db) {k k' : Nat}
    (hk : k < k') (h : interval w a b db k ≠ []) (h' : interval w a b db k' ≠ []) :
    meanOf f (interval w a b db k) ≤ meanOf f (interval w a b db k') := by
  have key : ∀ y ∈ interval w a b db k', meanOf f (interval w a b db k) ≤ ((f y : Int) : Rat) := by
    intro y hy
    obtain ⟨hy1, -, -, hy2⟩ := interval_mem.1 hy
    refine mean_le h fun x hx => ?_
    obtain ⟨hx1, -, -, hx2⟩ := interval_mem.1 hx
    refine hg x hx1 y hy1 (Nat.le_of_lt ?_)
    have := Nat.div_lt_iff_lt_mul hw (x := x.time) (y := k + 1)
    have := Nat.le_div_iff_mul_le hw (x := k + 1) (y := y.time)
    omega
  obtain ⟨y, hy, hm⟩ : ∃ y ∈ interval w a b db k', ∀ z ∈ interval w a b db k', f y ≤ f z := by
    generalize interval w a b db k' = l at h'
    induction l with
    | nil => exact absurd rfl h'
    | cons x l ih =>
      by_cases hl : l = []
      · subst hl; exact ⟨x, by simp, by simp⟩
      · obtain ⟨y, hy, hm⟩ := ih hl
        by_cases hxy : f x ≤ f y
        · refine ⟨x, List.mem_cons_self, fun z hz => ?_⟩
          rcases List.mem_cons.1 hz with rfl | hz
          · exact Int.le_refl _
          · exact Int.le_trans hxy (hm z hz)
        · refine ⟨y, List.mem_cons_of_mem _ hy, fun z hz => ?_⟩
          rcases List.mem_cons.1 hz with rfl | hz
          · omega
          · exact hm z hz
  exact Rat.le_trans (key y hy) (le_mean h' hm)

theorem derivative_mem {unit : Nat} : ∀ {l : List (Nat × Rat)} {p : Nat × Rat}, l.Pairwise (fun p q => p.1 < q.1) →
    p ∈ derivativeOf unit l → ∃ x ∈ l, ∃ y ∈ l, x.1 < y.1 ∧ p.2 = (y.2 - x.2) / (((y.1 : Rat) - (x.1 : Rat)) / (unit : Rat))
  | [], _, _, h => by cases h
  | [_], _, _, h => by cases h
  | x :: y :: l, p, hs, h => by
    obtain ⟨h1, h2⟩ := List.pairwise_cons.1 hs
    rcases List.mem_cons.1 h with rfl | h
    · exact ⟨x, by simp, y, by simp, h1 y List.mem_cons_self, rfl⟩
    · obtain ⟨x', hx, y', hy, h3⟩ := derivative_mem h2 h
      exact ⟨x', List.mem_cons_of_mem _ hx, y', List.mem_cons_of_mem _ hy, h3⟩

/-- **C135, no negative consumption (partial).**  If the index grows, no point of the curve is negative. -/
theorem c135_positive_partial {f : ConsoPoint → Int} {w : Nat} (hw : 0 < w) {a b : Nat} {db : List ConsoPoint} (hg : Grows f db) :
    ∀ p ∈ consumption f w a b db, 0 ≤ p.2 := by
  intro p hp
  obtain ⟨x, hx, y, hy, hxy, e⟩ := derivative_mem (means_sorted f hw a b db) hp
  obtain ⟨k, hx1, hx2, hx3⟩ := means_mem hx
  obtain ⟨k', hy1, hy2, hy3⟩ := means_mem hy
  have hk : k < k' := by
    rw [hx1, hy1] at hxy
    exact (Nat.mul_lt_mul_right hw).1 hxy
  have h1 := means_grow hw hg hk hx2 hy2
  rw [← hx3, ← hy3] at h1
  have h2 : (x.1 : Rat) < (y.1 : Rat) := by exact_mod_cast hxy
  have h3 : (0 : Rat) < ((y.1 : Rat) - (x.1 : Rat)) / ((3600 : Nat) : Rat) := by
    rw [Rat.lt_div_iff (by decide)]
    grind
  rw [e, ← Rat.not_lt, Rat.div_lt_iff h3]
  grind

/-- The first point of the means is that of the interval of the first measure, the last one that of the last. -/
theorem means_ends {f : ConsoPoint → Int} {w : Nat} (hw : 0 < w) {a b : Nat} {db : List ConsoPoint} {x y : ConsoPoint}
    (hx : x ∈ db ∧ a ≤ x.time ∧ x.time ≤ b) (hy : y ∈ db ∧ a ≤ y.time ∧ y.time ≤ b)
    (h1 : ∀ m ∈ db, a ≤ m.time → x.time ≤ m.time) (h2 : ∀ m ∈ db, m.time ≤ b → m.time ≤ y.time) :
    ∃ l, meansOf f w a b db = (x.time / w * w, meanOf f (interval w a b db (x.time / w))) :: l ∧
      ∀ h, (meansOf f w a b db).getLast h = (y.time / w * w, meanOf f (interval w a b db (y.time / w))) := by
  have mx := mean_mem (f := f) (w := w) hx.1 hx.2.1 hx.2.2
  have my := mean_mem (f := f) (w := w) hy.1 hy.2.1 hy.2.2
  have st := means_sorted f hw a b db
  have form : ∀ p ∈ meansOf f w a b db, ∃ k, x.time / w ≤ k ∧ k ≤ y.time / w ∧ p = (k * w, meanOf f (interval w a b db k)) := by
    intro p hp
    obtain ⟨k, e1, e2, e3⟩ := means_mem hp
    obtain ⟨m, hm⟩ := List.exists_mem_of_ne_nil _ e2
    obtain ⟨m1, m2, m3, rfl⟩ := interval_mem.1 hm
    exact ⟨_, Nat.div_le_div_right (h1 m m1 m2), Nat.div_le_div_right (h2 m m1 m3), Prod.ext e1 e3⟩
  have first : ∃ l, meansOf f w a b db = (x.time / w * w, meanOf f (interval w a b db (x.time / w))) :: l := by
    cases hl : meansOf f w a b db with
    | nil => rw [hl] at mx; cases mx
    | cons p l =>
      rw [hl] at mx form st
      refine ⟨l, ?_⟩
      obtain ⟨k, hk, -, rfl⟩ := form p List.mem_cons_self
      rcases List.mem_cons.1 mx with e | mx
      · rw [e]
      · have : k * w < x.time / w * w := (List.pairwise_cons.1 st).1 _ mx
        have := (Nat.mul_lt_mul_right hw).1 this
        omega
  obtain ⟨l, hl⟩ := first
  refine ⟨l, hl, ?_⟩
  · intro h
    obtain ⟨k, -, hk, e⟩ := form _ (List.getLast_mem h)
    obtain ⟨l, p, hl⟩ : ∃ l p, meansOf f w a b db = l ++ [p] :=
      ⟨_, _, (List.dropLast_concat_getLast h).symm⟩
    have hp : (meansOf f w a b db).getLast h = p := by simp [hl]
    rw [hp] at e ⊢
    rw [hl] at my st
    rcases List.mem_append.1 my with my | my
    · have : y.time / w * w < p.1 := (List.pairwise_append.1 st).2.2 _ my p (by simp)
      rw [e] at this
      have := (Nat.mul_lt_mul_right hw).1 this
      omega
    · exact (List.mem_singleton.1 my).symm

/-- **C135, the consumption (partial).**  For every set of measures, every range of the dashboard and every width of its intervals, an
index that grows: the curve adds up to the difference of the mean indexes of its last and of its first interval.  This is at most what
the meter has counted between the first and the last measure of the range, and at least what it has counted between two measures that
are not in these two intervals, however many intervals are empty.  Missing with respect to the property as stated: several meters
(`c135_refuted_meters`). -/
theorem c135_energy_partial {f : ConsoPoint → Int} {w : Nat} (hw : 0 < w) {a b : Nat} {db : List ConsoPoint} (hg : Grows f db)
    {x y : ConsoPoint} (hx : x ∈ db ∧ a ≤ x.time ∧ x.time ≤ b) (hy : y ∈ db ∧ a ≤ y.time ∧ y.time ≤ b)
    (h1 : ∀ m ∈ db, a ≤ m.time → x.time ≤ m.time) (h2 : ∀ m ∈ db, m.time ≤ b → m.time ≤ y.time) :
    addUp 3600 (x.time / w * w) (consumption f w a b db) =
        meanOf f (interval w a b db (y.time / w)) - meanOf f (interval w a b db (x.time / w)) ∧
      addUp 3600 (x.time / w * w) (consumption f w a b db) ≤ (f y : Rat) - (f x : Rat) ∧
      ∀ u ∈ db, ∀ v ∈ db, x.time / w < u.time / w → v.time / w < y.time / w →
        (f v : Rat) - (f u : Rat) ≤ addUp 3600 (x.time / w * w) (consumption f w a b db) := by
  obtain ⟨l, e1, e2⟩ := means_ends (f := f) hw hx hy h1 h2
  have st := means_sorted f hw a b db
  have ne : ∀ m, m ∈ db ∧ a ≤ m.time ∧ m.time ≤ b → interval w a b db (m.time / w) ≠ [] := fun m hm =>
    List.ne_nil_of_mem (interval_mem.2 ⟨hm.1, hm.2.1, hm.2.2, rfl⟩)
  have e : addUp 3600 (x.time / w * w) (consumption f w a b db) =
      meanOf f (interval w a b db (y.time / w)) - meanOf f (interval w a b db (x.time / w)) := by
    have := derivative_addUp (unit := 3600) (by decide) l _ (e1 ▸ st)
    unfold consumption
    rw [e1]
    rw [this]
    congr 1
    have := e2 (by rw [e1]; simp)
    simp only [e1] at this
    rw [this]
  refine ⟨e, ?_, fun u hu v hv hxu hvy => ?_⟩
  · rw [e]
    have u1 : meanOf f (interval w a b db (y.time / w)) ≤ (f y : Rat) := mean_le (ne y hy) fun m hm => by
      obtain ⟨m1, m2, m3, -⟩ := interval_mem.1 hm
      exact hg m m1 y hy.1 (h2 m m1 m3)
    have u2 : (f x : Rat) ≤ meanOf f (interval w a b db (x.time / w)) := le_mean (ne x hx) fun m hm => by
      obtain ⟨m1, m2, m3, -⟩ := interval_mem.1 hm
      exact hg x hx.1 m m1 (h1 m m1 m2)
    grind
  · rw [e]
    have lt : ∀ p q : Nat, p / w < q / w → p ≤ q := fun p q h => Nat.le_of_not_lt fun h' =>
      absurd (Nat.div_le_div_right (Nat.le_of_lt h') (c := w)) (by omega)
    have u1 : (f v : Rat) ≤ meanOf f (interval w a b db (y.time / w)) := le_mean (ne y hy) fun m hm => by
      obtain ⟨m1, m2, m3, m4⟩ := interval_mem.1 hm
      exact hg v hv m m1 (lt _ _ (by omega))
    have u2 : meanOf f (interval w a b db (x.time / w)) ≤ (f u : Rat) := mean_le (ne x hx) fun m hm => by
      obtain ⟨m1, m2, m3, m4⟩ := interval_mem.1 hm
      exact hg m m1 u hu (lt _ _ (by omega))
    grind

theorem derivative_times {unit : Nat} : ∀ (l l' : List (Nat × Rat)), l.map (·.1) = l'.map (·.1) →
    (derivativeOf unit l).map (·.1) = (derivativeOf unit l').map (·.1)
  | [], [], _ => rfl
  | [_], [_], _ => rfl
  | x :: y :: l, x' :: y' :: l', h => by
    simp only [List.map_cons, List.cons.injEq] at h
    have := derivative_times (unit := unit) (y :: l) (y' :: l') (by simp [h.2.1, h.2.2])
    simp only [derivativeOf, List.map_cons, List.cons.injEq]
    exact ⟨h.2.1, this⟩
  | [], _ :: _, h => by cases h
  | _ :: _, [], h => by cases h
  | [_], _ :: _ :: _, h => by simp at h
  | _ :: _ :: _, [_], h => by simp at h

theorem addUp_zip (unit : Nat) (c d : Rat) : ∀ (l l' : List (Nat × Rat)) (t : Nat), l.map (·.1) = l'.map (·.1) →
    addUp unit t (List.zipWith (fun x y => (x.1, x.2 * c / 1000 + y.2 * d / 1000)) l l') =
      addUp unit t l * c / 1000 + addUp unit t l' * d / 1000
  | [], [], t, _ => by simp only [addUp, List.zipWith_nil_left]; grind
  | x :: l, y :: l', t, h => by
    simp only [List.map_cons, List.cons.injEq] at h
    have ih := addUp_zip unit c d l l' x.1 h.2
    simp only [List.zipWith_cons_cons, addUp]
    rw [ih, ← h.1]
    generalize ((x.1 : Rat) - (t : Rat)) / (unit : Rat) = z
    grind
  | [], _ :: _, _, h => by cases h
  | _ :: _, [], _, h => by cases h

/-- **C135, the cost.**  The curve of the cost adds up to the energy of each tariff, in kWh, times its price with the taxes. -/
theorem c135_cost (w a b t : Nat) (db : List ConsoPoint) :
    addUp 3600 t (costPanel w a b db) = addUp 3600 t (consumption (·.hchp) w a b db) / 1000 * priceHp +
      addUp 3600 t (consumption (·.hchc) w a b db) / 1000 * priceHc := by
  have hp : tarifHp = priceHp := by decide +kernel
  have hc : tarifHc = priceHc := by decide +kernel
  have times : (meansOf (·.hchp) w a b db).map (·.1) = (meansOf (·.hchc) w a b db).map (·.1) := by
    unfold meansOf
    rw [List.map_filterMap, List.map_filterMap]
    congr 1
    funext k
    split <;> rfl
  unfold costPanel
  have e := addUp_zip 3600 tarifHp tarifHc (consumption (·.hchp) w a b db) (consumption (·.hchc) w a b db) t (derivative_times _ _ times)
  rw [e, hp, hc]
  grind

/-! ## The intensity and the power -/

theorem fold_max : ∀ (l : List Int) (c : Int), (l.foldl max c = c ∨ l.foldl max c ∈ l) ∧ c ≤ l.foldl max c ∧ ∀ x ∈ l, x ≤ l.foldl max c
  | [], c => ⟨.inl rfl, Int.le_refl _, fun _ h => by cases h⟩
  | y :: l, c => by
    obtain ⟨h1, h2, h3⟩ := fold_max l (max c y)
    simp only [List.foldl_cons, List.mem_cons]
    refine ⟨?_, by omega, ?_⟩
    · rcases h1 with h1 | h1
      · rw [h1]; omega
      · exact .inr (.inr h1)
    · rintro x (rfl | hx)
      · omega
      · exact h3 x hx

theorem fold_min : ∀ (l : List Int) (c : Int), (l.foldl min c = c ∨ l.foldl min c ∈ l) ∧ l.foldl min c ≤ c ∧ ∀ x ∈ l, l.foldl min c ≤ x
  | [], c => ⟨.inl rfl, Int.le_refl _, fun _ h => by cases h⟩
  | y :: l, c => by
    obtain ⟨h1, h2, h3⟩ := fold_min l (min c y)
    simp only [List.foldl_cons, List.mem_cons]
    refine ⟨?_, by omega, ?_⟩
    · rcases h1 with h1 | h1
      · rw [h1]; omega
      · exact .inr (.inr h1)
    · rintro x (rfl | hx)
      · omega
      · exact h3 x hx

/-- **C135, the intensity and the power.**  Each point of the panels is that of an interval with measures in the range, and each such
interval has its point: the highest and the lowest value are those of measures of the interval, all the others are between them, and so
is the mean, which times the number of measures is their sum. -/
theorem c135_range (f : ConsoPoint → Int) {w : Nat} (hw : 0 < w) (a b : Nat) (db : List ConsoPoint) :
    (∀ m ∈ db, a ≤ m.time → m.time ≤ b → ∃ hi mean lo, (m.time / w * w, hi, mean, lo) ∈ rangePanel f w a b db ∧ lo ≤ f m ∧ f m ≤ hi) ∧
    ∀ t hi mean lo, (t, hi, mean, lo) ∈ rangePanel f w a b db → (lo : Rat) ≤ mean ∧ mean ≤ (hi : Rat) ∧
      mean * ((db.filter fun m => decide (a ≤ m.time ∧ m.time ≤ b ∧ m.time / w * w = t)).length : Rat) =
        (((db.filter fun m => decide (a ≤ m.time ∧ m.time ≤ b ∧ m.time / w * w = t)).map f).sum : Int) ∧
      ∀ v, v = hi ∨ v = lo → ∃ m ∈ db, a ≤ m.time ∧ m.time ≤ b ∧ m.time / w * w = t ∧ f m = v := by
  have hmx : ∀ l : List ConsoPoint, l ≠ [] → (∀ m ∈ l, f m ≤ maxOf (l.map f)) ∧ ∃ m ∈ l, f m = maxOf (l.map f) := by
    intro l hl
    cases l with
    | nil => exact absurd rfl hl
    | cons x l =>
      obtain ⟨h1, h2, h3⟩ := fold_max (l.map f) (f x)
      simp only [maxOf, List.map_cons, List.tail_cons, List.headD_cons]
      refine ⟨fun m hm => ?_, ?_⟩
      · rcases List.mem_cons.1 hm with rfl | hm
        · exact h2
        · exact h3 _ (List.mem_map_of_mem hm)
      · rcases h1 with h1 | h1
        · exact ⟨x, List.mem_cons_self, h1.symm⟩
        · obtain ⟨m, hm, e⟩ := List.mem_map.1 h1
          exact ⟨m, List.mem_cons_of_mem _ hm, e⟩
  have hmn : ∀ l : List ConsoPoint, l ≠ [] → (∀ m ∈ l, minOf (l.map f) ≤ f m) ∧ ∃ m ∈ l, f m = minOf (l.map f) := by
    intro l hl
    cases l with
    | nil => exact absurd rfl hl
    | cons x l =>
      obtain ⟨h1, h2, h3⟩ := fold_min (l.map f) (f x)
      simp only [minOf, List.map_cons, List.tail_cons, List.headD_cons]
      refine ⟨fun m hm => ?_, ?_⟩
      · rcases List.mem_cons.1 hm with rfl | hm
        · exact h2
        · exact h3 _ (List.mem_map_of_mem hm)
      · rcases h1 with h1 | h1
        · exact ⟨x, List.mem_cons_self, h1.symm⟩
        · obtain ⟨m, hm, e⟩ := List.mem_map.1 h1
          exact ⟨m, List.mem_cons_of_mem _ hm, e⟩
  constructor
  · intro m hm ha hb
    have hi : m ∈ interval w a b db (m.time / w) := interval_mem.2 ⟨hm, ha, hb, rfl⟩
    have ne := List.ne_nil_of_mem hi
    refine ⟨_, meanOf f (interval w a b db (m.time / w)), _, List.mem_filterMap.2 ⟨m.time / w, List.mem_range.2 (Nat.lt_succ_of_le (Nat.div_le_div_right hb)), ?_⟩,
      (hmn _ ne).1 m hi, (hmx _ ne).1 m hi⟩
    simp only [if_neg ne]
  · intro t hi mean lo h
    obtain ⟨k, -, hk⟩ := List.mem_filterMap.1 h
    simp only at hk
    split at hk
    · cases hk
    · rename_i ne
      cases hk
      have ei : (db.filter fun m => decide (a ≤ m.time ∧ m.time ≤ b ∧ m.time / w * w = k * w)) = interval w a b db k := by
        unfold interval
        congr 1
        funext m
        simp only [decide_eq_decide]
        have : m.time / w * w = k * w ↔ m.time / w = k := Nat.mul_left_inj (by omega)
        rw [this]
      refine ⟨le_mean ne (hmn _ ne).1, mean_le ne (hmx _ ne).1, ?_, ?_⟩
      · rw [ei]
        have := length_pos' ne
        unfold meanOf
        grind
      rintro v (rfl | rfl)
      · obtain ⟨m, hm, e⟩ := (hmx _ ne).2
        obtain ⟨m1, m2, m3, m4⟩ := interval_mem.1 hm
        exact ⟨m, m1, m2, m3, by rw [m4], e⟩
      · obtain ⟨m, hm, e⟩ := (hmn _ ne).2
        obtain ⟨m1, m2, m3, m4⟩ := interval_mem.1 hm
        exact ⟨m, m1, m2, m3, by rw [m4], e⟩

/-! ## From the collector -/

/-- **C135, from the collector.**  The point that the collector writes for a frame (C92) is kept by the database with the numbers of the
meter, if it can read the date. -/
theorem c135_kept {gs : List MeterGroup} {iso : Str} {p : Point} (h : Records gs iso p) (hl : ∀ g ∈ gs, g.label ≠ bs "timestamp")
    {date : Str → Option Nat} {t : Nat} (hd : date iso = some t) {adco hchc hchp papp iinst : Str}
    (h1 : Says gs (bs "ADCO") adco ∧ numeral adco = true) (h2 : Says gs (bs "HCHC") hchc ∧ numeral hchc = true)
    (h3 : Says gs (bs "HCHP") hchp ∧ numeral hchp = true) (h4 : Says gs (bs "PAPP") papp ∧ numeral papp = true)
    (h5 : Says gs (bs "IINST") iinst ∧ numeral iinst = true) :
    measureOf date p = some ⟨decVal adco, t, decVal hchc, decVal hchp, decVal papp, decVal iinst⟩ := by
  unfold measureOf
  rw [h.host _ h1.1 h1.2, h.time hl, h.hchc _ h2.1 h2.2, h.hchp _ h3.1 h3.2, h.papp _ h4.1 h4.2, h.iinst _ h5.1 h5.2]
  simp [hd]

/-! ## Examples -/

/-- Five measures of a meter, with a gap of two hours. -/
def sampleMeasures : List ConsoPoint :=
  [⟨7, 100000, 500, 1000, 300, 2⟩, ⟨7, 100030, 500, 1004, 500, 3⟩, ⟨7, 100070, 500, 1010, 400, 2⟩, ⟨7, 107270, 1500, 1010, 900, 4⟩,
    ⟨7, 107330, 1510, 1010, 600, 3⟩]

example : OneMeter sampleMeasures := by
  unfold OneMeter
  decide +kernel

example : Grows (·.hchp) (storeAll sampleMeasures) ∧ Grows (·.hchc) (storeAll sampleMeasures) := by
  unfold Grows
  decide +kernel

example : currentPanel (·.hchp) 107340 (storeAll sampleMeasures) = some 1010 ∧
    currentPanel (·.hchp) 110930 (storeAll sampleMeasures) = none ∧
    consumption (·.hchp) 60 0 200000 sampleMeasures = [(100020, 420), (107220, 3 / 2), (107280, 0)] ∧
    rangePanel (·.iinst) 60 0 100100 sampleMeasures = [(99960, 2, 2, 2), (100020, 3, 5 / 2, 2)] := by
  decide +kernel

/-- **C135** as stated is false: the dashboard does not look at the tag `host`.  With two meters, whose indexes grow, the curve has a
negative consumption, and the current value is that of the meter that was heard last. -/
theorem c135_refuted_meters :
    let one : List ConsoPoint := [⟨1, 600, 0, 1000, 300, 2⟩, ⟨1, 660, 0, 1010, 300, 2⟩]
    let two : List ConsoPoint := [⟨2, 605, 0, 9000, 100, 1⟩]
    Grows (·.hchp) one ∧ Grows (·.hchp) two ∧ consumption (·.hchp) 60 0 1000 (one ++ two) = [(660, -239400)] ∧
      currentPanel (·.hchp) 700 (one.take 1 ++ two) = some 9000 := by
  unfold Grows
  decide +kernel

end Wifinfo
