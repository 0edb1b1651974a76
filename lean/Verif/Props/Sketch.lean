import Verif.Model.Sketch
import Verif.Props.Prep
import Verif.Props.EepromTool

/-!
# C120: the sketch for the Arduino IDE has the files of the project
-/

namespace Wifinfo
open Spec

namespace Spec

/-- There is a file with this content. -/
def HasFile (t : Tree) (p : FsPath) (c : Str) : Prop := ∃ m, (p, .file c m) ∈ t

/-- What the sketch must have: the files of `src` beside one another, those of `data` in the folder `data`. -/
def InSketch (src data : Tree) (p : FsPath) (c : Str) : Prop :=
  (∃ n, p = [bs "wifinfo", n] ∧ HasFile src [n] c) ∨ (∃ q, p = bs "wifinfo" :: bs "data" :: q ∧ HasFile data q c)

/-- The same with the single file. -/
def InSingle (text : Str) (data : Tree) (p : FsPath) (c : Str) : Prop :=
  (p = [bs "wifinfo", bs "wifinfo.ino"] ∧ c = text) ∨ (∃ q, p = bs "wifinfo" :: bs "data" :: q ∧ HasFile data q c)

/-- A folder as the file system has it: each path once, and the folder itself is not in the list. -/
def Listed (t : Tree) : Prop := (t.map Prod.fst).Nodup ∧ [] ∉ t.map Prod.fst

end Spec

theorem mem_sources {src : Tree} {p : FsPath} {c : Str} {m : Nat} :
    (p, c, m) ∈ sketchSources src ↔ ∃ n, p = [bs "wifinfo", n] ∧ ([n], .file c m) ∈ src := by
  induction src with
  | nil => simp [sketchSources]
  | cons x t ih =>
    unfold sketchSources
    split
    · cases ‹_ :: _ = _›
    · rename_i n c' m' t' he
      cases he
      rw [List.mem_cons, ih]
      constructor
      · rintro (h | ⟨k, h1, h2⟩)
        · cases h; exact ⟨n, rfl, by simp⟩
        · exact ⟨k, h1, List.mem_cons_of_mem _ h2⟩
      · rintro ⟨k, rfl, h2⟩
        rcases List.mem_cons.1 h2 with h2 | h2
        · cases h2; exact .inl rfl
        · exact .inr ⟨k, rfl, h2⟩
    · rename_i x' t' hne he
      cases he
      rw [ih]
      constructor
      · rintro ⟨k, h1, h2⟩; exact ⟨k, h1, List.mem_cons_of_mem _ h2⟩
      · rintro ⟨k, h1, h2⟩
        rcases List.mem_cons.1 h2 with h2 | h2
        · exact (hne _ _ _ h2.symm).elim
        · exact ⟨k, h1, h2⟩

theorem mem_data {data : Tree} {p : FsPath} {c : Str} {m : Nat} :
    (p, c, m) ∈ sketchData data ↔ ∃ q, p = bs "wifinfo" :: bs "data" :: q ∧ (q, .file c m) ∈ data := by
  induction data with
  | nil => simp [sketchData]
  | cons x t ih =>
    obtain ⟨q0, n0⟩ := x
    cases n0 with
    | dir =>
      rw [sketchData, ih]
      simp
    | file c' m' =>
      rw [sketchData, List.mem_cons, ih]
      constructor
      · rintro (h | ⟨k, h1, h2⟩)
        · cases h; exact ⟨q0, rfl, by simp⟩
        · exact ⟨k, h1, List.mem_cons_of_mem _ h2⟩
      · rintro ⟨k, rfl, h2⟩
        rcases List.mem_cons.1 h2 with h2 | h2
        · cases h2; exact .inl rfl
        · exact .inr ⟨k, rfl, h2⟩

/-- The members that are asked for. -/
theorem mem_ops {src data : Tree} {p : FsPath} {c : Str} : (∃ m, (p, c, m) ∈ sketchOps none src data) ↔ InSketch src data p c := by
  unfold sketchOps InSketch HasFile
  simp only [List.mem_append, mem_sources, mem_data]
  constructor
  · rintro ⟨m, ⟨n, h1, h2⟩ | ⟨q, h1, h2⟩⟩
    · exact .inl ⟨n, h1, m, h2⟩
    · exact .inr ⟨q, h1, m, h2⟩
  · rintro (⟨n, h1, m, h2⟩ | ⟨q, h1, m, h2⟩)
    · exact ⟨m, .inl ⟨n, h1, h2⟩⟩
    · exact ⟨m, .inr ⟨q, h1, h2⟩⟩

theorem mem_ops_one {text : Str} {m0 : Nat} {src data : Tree} {p : FsPath} {c : Str} :
    (∃ m, (p, c, m) ∈ sketchOps (some (text, m0)) src data) ↔ InSingle text data p c := by
  unfold sketchOps InSingle HasFile
  simp only [List.mem_append, List.mem_singleton, mem_data, Prod.mk.injEq]
  constructor
  · rintro ⟨m, ⟨h1, h2, _⟩ | ⟨q, h1, h2⟩⟩
    · exact .inl ⟨h1, h2⟩
    · exact .inr ⟨q, h1, m, h2⟩
  · rintro (⟨h1, h2⟩ | ⟨q, h1, m, h2⟩)
    · exact ⟨m0, .inl ⟨h1, h2, rfl⟩⟩
    · exact ⟨m, .inr ⟨q, h1, h2⟩⟩

theorem sources_nodup {src : Tree} (h : (src.map Prod.fst).Nodup) : ((sketchSources src).map Prod.fst).Nodup := by
  induction src with
  | nil => simp [sketchSources]
  | cons x t ih =>
    rw [List.map_cons, List.nodup_cons] at h
    unfold sketchSources
    split
    · cases ‹_ :: _ = _›
    · rename_i n c m t' he
      cases he
      rw [List.map_cons, List.nodup_cons]
      refine ⟨?_, ih h.2⟩
      intro hm
      obtain ⟨⟨p, c', m'⟩, h1, h2⟩ := List.mem_map.1 hm
      obtain ⟨k, h3, h4⟩ := mem_sources.1 h1
      have : n = k := by simpa [h3] using h2.symm
      subst this
      exact h.1 (List.mem_map.2 ⟨_, h4, rfl⟩)
    · rename_i x' t' hne he
      cases he
      exact ih h.2

theorem data_nodup {data : Tree} (h : (data.map Prod.fst).Nodup) : ((sketchData data).map Prod.fst).Nodup := by
  induction data with
  | nil => simp [sketchData]
  | cons x t ih =>
    rw [List.map_cons, List.nodup_cons] at h
    obtain ⟨q0, n0⟩ := x
    cases n0 with
    | dir => exact ih h.2
    | file c m =>
      rw [sketchData, List.map_cons, List.nodup_cons]
      refine ⟨?_, ih h.2⟩
      intro hm
      obtain ⟨⟨p, c', m'⟩, h1, h2⟩ := List.mem_map.1 hm
      obtain ⟨k, h3, h4⟩ := mem_data.1 h1
      have : q0 = k := by simpa [h3] using h2.symm
      subst this
      exact h.1 (List.mem_map.2 ⟨_, h4, rfl⟩)

theorem ops_nodup {one} {src data : Tree} (h1 : Listed src) (h2 : Listed data) : ((sketchOps one src data).map Prod.fst).Nodup := by
  unfold sketchOps
  rw [List.map_append, List.nodup_append]
  refine ⟨?_, data_nodup h2.1, ?_⟩
  · cases one with
    | none => exact sources_nodup h1.1
    | some x => simp
  · intro a ha b hb e
    subst e
    obtain ⟨⟨p, c, m⟩, g1, g2⟩ := List.mem_map.1 hb
    obtain ⟨q, g3, g4⟩ := mem_data.1 g1
    have hq : q ≠ [] := by
      rintro rfl
      exact h2.2 (List.mem_map.2 ⟨_, g4, rfl⟩)
    have hl : 2 < a.length := by
      rw [← g2, g3]
      have := List.length_pos_iff.2 hq
      simp; omega
    have : a.length = 2 := by
      obtain ⟨⟨p', c', m'⟩, k1, k2⟩ := List.mem_map.1 ha
      cases one with
      | none =>
        obtain ⟨n, k3, -⟩ := mem_sources.1 k1
        rw [← k2, k3]; rfl
      | some x =>
        rw [List.mem_singleton] at k1
        rw [← k2, k1]; rfl
    omega

/-- **C120**, the archive: it has the files of the sources and of the data, each once, with its content and at its place, and nothing
else. -/
theorem c120_archive {src data : Tree} (h1 : Listed src) (h2 : Listed data) :
    (∀ p c, (p, c) ∈ sketchZip none src data ↔ InSketch src data p c) ∧ ((sketchZip none src data).map Prod.fst).Nodup := by
  refine ⟨fun p c => ?_, ?_⟩
  · rw [← mem_ops]
    unfold sketchZip
    rw [List.mem_map]
    constructor
    · rintro ⟨⟨p', c', m⟩, h, e⟩; cases e; exact ⟨m, h⟩
    · rintro ⟨m, h⟩; exact ⟨_, h, rfl⟩
  · have := ops_nodup (one := none) h1 h2
    unfold sketchZip
    rw [List.map_map]
    exact this

/-- **C120**, the archive of `--one`: the single file and the data. -/
theorem c120_archive_one {src data : Tree} (h1 : Listed src) (h2 : Listed data) (text : Str) (m : Nat) :
    (∀ p c, (p, c) ∈ sketchZip (some (text, m)) src data ↔ InSingle text data p c) ∧
      ((sketchZip (some (text, m)) src data).map Prod.fst).Nodup := by
  refine ⟨fun p c => ?_, ?_⟩
  · rw [← mem_ops_one (m0 := m) (src := src)]
    unfold sketchZip
    rw [List.mem_map]
    constructor
    · rintro ⟨⟨p', c', m⟩, h, e⟩; cases e; exact ⟨m, h⟩
    · rintro ⟨m, h⟩; exact ⟨_, h, rfl⟩
  · have := ops_nodup (one := some (text, m)) h1 h2
    unfold sketchZip
    rw [List.map_map]
    exact this

/-! ## The copy -/

theorem cp_at {t t' : Tree} {x : FsPath × Str × Nat} (h : sketchCp t x = some t') (q : FsPath) :
    (q = x.1 ∧ t'.at q = some (.file x.2.1 x.2.2)) ∨ (q ≠ x.1 ∧ (t'.at q = t.at q ∨ (t.at q = none ∧ t'.at q = some .dir))) := by
  unfold sketchCp at h
  cases hm : t.mkdirs [] x.1.dropLast with
  | none => rw [hm] at h; cases h
  | some t1 =>
    rw [hm] at h
    have h : t1.write x.1 x.2.1 x.2.2 = some t' := h
    have hw := at_write h q
    by_cases hq : q = x.1
    · exact .inl ⟨hq, by rw [hw, if_pos hq]⟩
    · rw [if_neg hq] at hw
      refine .inr ⟨hq, ?_⟩
      rcases at_mkdirs _ hm q with g | ⟨g1, g2, _⟩
      · exact .inl (by rw [hw, g])
      · exact .inr ⟨g1, by rw [hw, g2]⟩

theorem copy_at : ∀ (ops : List (FsPath × Str × Nat)) {t t' : Tree}, ops.foldlM sketchCp t = some t' → (ops.map Prod.fst).Nodup →
    (∀ x ∈ ops, t'.at x.1 = some (.file x.2.1 x.2.2)) ∧
    ∀ q, q ∉ ops.map Prod.fst → t'.at q = t.at q ∨ (t.at q = none ∧ t'.at q = some .dir) := by
  intro ops
  induction ops with
  | nil =>
    intro t t' h _
    cases h
    exact ⟨by simp, fun q _ => .inl rfl⟩
  | cons x l ih =>
    intro t t' h hn
    rw [List.map_cons, List.nodup_cons] at hn
    rw [List.foldlM_cons] at h
    cases h1 : sketchCp t x with
    | none => rw [h1] at h; cases h
    | some t1 =>
      rw [h1] at h
      obtain ⟨a, b⟩ := ih h hn.2
      refine ⟨?_, ?_⟩
      · intro y hy
        rcases List.mem_cons.1 hy with rfl | hy
        · rcases cp_at h1 y.1 with ⟨_, g⟩ | ⟨g, _⟩
          · rcases b y.1 hn.1 with b | ⟨b, _⟩
            · rw [b, g]
            · rw [g] at b; cases b
          · exact absurd rfl g
        · exact a y hy
      · intro q hq
        rw [List.map_cons, List.mem_cons, not_or] at hq
        rcases cp_at h1 q with ⟨g, _⟩ | ⟨_, g⟩
        · exact absurd g hq.1
        · rcases b q hq.2 with b | ⟨b1, b2⟩ <;> rcases g with g | ⟨g1, g2⟩
          · exact .inl (b.trans g)
          · exact .inr ⟨g1, by rw [b, g2]⟩
          · exact .inr ⟨by rw [← g, b1], b2⟩
          · rw [g2] at b1; cases b1

/-- **C120**, `--copy`, in part: when the copy ends, each file of the sources and of the data is at its place with its content, and every
file that was in the folder and is not one of them is as it was.  Missing: such a file should not be there (`c120_refuted_stale`). -/
theorem c120_copy_partial {src data target t' : Tree} (h1 : Listed src) (h2 : Listed data)
    (h : sketchCopy none src data target = some t') :
    (∀ p c, InSketch src data p c → ∃ m, t'.at p = some (.file c m)) ∧
    ∀ p, (∀ c, ¬ InSketch src data p c) → ∀ c m, t'.at p = some (.file c m) ↔ target.at p = some (.file c m) := by
  obtain ⟨a, b⟩ := copy_at _ h (ops_nodup h1 h2)
  refine ⟨?_, ?_⟩
  · intro p c hp
    obtain ⟨m, hm⟩ := mem_ops.2 hp
    exact ⟨m, a _ hm⟩
  · intro p hp c m
    have hq : p ∉ (sketchOps none src data).map Prod.fst := by
      intro hm
      obtain ⟨⟨p', c', m'⟩, g1, g2⟩ := List.mem_map.1 hm
      have g2 : p' = p := g2
      subst g2
      exact hp _ (mem_ops.1 ⟨_, g1⟩)
    rcases b p hq with g | ⟨g1, g2⟩
    · rw [g]
    · rw [g1, g2]
      exact ⟨nofun, nofun⟩

/-- **C120**, `--copy --one`, in part, likewise. -/
theorem c120_copy_one_partial {src data target t' : Tree} (h1 : Listed src) (h2 : Listed data) (text : Str) (m0 : Nat)
    (h : sketchCopy (some (text, m0)) src data target = some t') :
    (∀ p c, InSingle text data p c → ∃ m, t'.at p = some (.file c m)) ∧
    ∀ p, (∀ c, ¬ InSingle text data p c) → ∀ c m, t'.at p = some (.file c m) ↔ target.at p = some (.file c m) := by
  obtain ⟨a, b⟩ := copy_at _ h (ops_nodup h1 h2)
  refine ⟨?_, ?_⟩
  · intro p c hp
    obtain ⟨m, hm⟩ := mem_ops_one.2 hp
    exact ⟨m, a _ hm⟩
  · intro p hp c m
    have hq : p ∉ (sketchOps (some (text, m0)) src data).map Prod.fst := by
      intro hm
      obtain ⟨⟨p', c', m'⟩, g1, g2⟩ := List.mem_map.1 hm
      have g2 : p' = p := g2
      subst g2
      exact hp _ (mem_ops_one.1 ⟨_, g1⟩)
    rcases b p hq with g | ⟨g1, g2⟩
    · rw [g]
    · rw [g1, g2]
      exact ⟨nofun, nofun⟩

/-- The project, small. -/
def smallSrc : Tree := [([bs "main.cpp"], .file (bs "int a;") 5), ([bs "tic.h"], .file (bs "int b;") 6)]
def smallData : Tree := [([bs "js"], .dir), ([bs "js", bs "wifinfo.js.gz"], .file (bs "zz") 7)]

example : Listed smallSrc ∧ Listed smallData := by unfold Listed; decide

example : sketchZip none smallSrc smallData = [([bs "wifinfo", bs "main.cpp"], bs "int a;"), ([bs "wifinfo", bs "tic.h"], bs "int b;"),
    ([bs "wifinfo", bs "data", bs "js", bs "wifinfo.js.gz"], bs "zz")] := by decide

example : (sketchCopy none smallSrc smallData []).isSome = true := by decide

/-- **C120** is false for the copy: a source of an earlier version stays in the folder, and the IDE compiles it too. -/
theorem c120_refuted_stale : ∃ target t', sketchCopy none smallSrc smallData target = some t' ∧
    t'.at [bs "wifinfo", bs "old.cpp"] = some (.file (bs "int a;") 1) ∧ ∀ c, ¬ InSketch smallSrc smallData [bs "wifinfo", bs "old.cpp"] c := by
  refine ⟨[([bs "wifinfo"], .dir), ([bs "wifinfo", bs "old.cpp"], .file (bs "int a;") 1)], _, rfl, by decide, ?_⟩
  rintro c (⟨n, e, m, hm⟩ | ⟨q, e, _⟩)
  · have hn : n = bs "old.cpp" := by simpa using e.symm
    subst hn
    have : [bs "old.cpp"] ∈ smallSrc.map Prod.fst := List.mem_map.2 ⟨_, hm, rfl⟩
    exact absurd this (by decide)
  · exact absurd (congrArg (List.take 2) e) (by simp; decide)

/-- **C120** is false for the copy with `--one` after a copy without: all the sources are there twice. -/
theorem c120_refuted_twice : ∃ t1 t2, sketchCopy none smallSrc smallData [] = some t1 ∧
    sketchCopy (some (bs "int a; int b;", 9)) smallSrc smallData t1 = some t2 ∧
    t2.at [bs "wifinfo", bs "wifinfo.ino"] = some (.file (bs "int a; int b;") 9) ∧
    t2.at [bs "wifinfo", bs "main.cpp"] = some (.file (bs "int a;") 5) :=
  ⟨_, _, rfl, rfl, by decide, by decide⟩

/-- **C120**: a source in a folder below `src` is not in the sketch (there is none in the project). -/
theorem c120_refuted_below : ∃ src p c, HasFile src p c ∧ Listed src ∧ ∀ data q, (q, c) ∈ sketchZip none src data → HasFile data (q.drop 2) c := by
  refine ⟨[([bs "lib"], .dir), ([bs "lib", bs "a.h"], .file (bs "x") 1)], [bs "lib", bs "a.h"], bs "x", ⟨1, by decide⟩,
    by unfold Listed; decide, ?_⟩
  intro data q h
  unfold sketchZip at h
  obtain ⟨⟨p', c', m⟩, g, e⟩ := List.mem_map.1 h
  have e1 : p' = q := congrArg Prod.fst e
  have e2 : c' = bs "x" := congrArg Prod.snd e
  subst e1 e2
  have g : _ ∈ sketchData data := g
  obtain ⟨k, e, g⟩ := mem_data.1 g
  exact ⟨m, by rw [e]; exact g⟩

theorem suffix_plain {dir base : Str} (hd : dir = [] ∨ dir.getLast? = some 47) (h1 : 47 ∉ base) (h2 : 46 ∉ base) :
    fileSuffix (dir ++ base) = [] := by
  have hr : ((dir ++ base).reverse.takeWhile (· != 47)) = base.reverse := by
    rw [List.reverse_append, List.takeWhile_append_of_pos]
    · rcases hd with rfl | hd
      · simp
      · obtain ⟨l, rfl⟩ : ∃ l, dir = l ++ [47] := by
          rw [List.getLast?_eq_some_iff] at hd
          exact hd
        simp
    · intro b hb
      have : b ∈ base := List.mem_reverse.1 hb
      simp only [bne_iff_ne, ne_eq]
      rintro rfl
      exact h1 this
  have he : base.reverse.takeWhile (· != 46) = base.reverse := by
    have := List.takeWhile_append_of_pos (p := (· != (46 : Byte))) (l₁ := base.reverse) (l₂ := []) ?_
    · simpa using this
    intro b hb
    have : b ∈ base := List.mem_reverse.1 hb
    simp only [bne_iff_ne, ne_eq]
    rintro rfl
    exact h2 this
  unfold fileSuffix
  simp only [hr, he]
  rw [if_neg (by omega)]

/-- **C120**, the name of the archive, in part: a name without a dot gets the extension `.zip`, and a name with this extension is kept.
Missing: another name with a dot, as one with a version (`c120_refuted_name`). -/
theorem c120_name_partial (dir base : Str) (hd : dir = [] ∨ dir.getLast? = some 47) (h0 : base ≠ []) (h1 : 47 ∉ base) (h2 : 46 ∉ base) :
    archiveName (dir ++ base) = dir ++ base ++ bs ".zip" ∧ archiveName (dir ++ base ++ bs ".zip") = dir ++ base ++ bs ".zip" := by
  refine ⟨by rw [archiveName, if_pos (suffix_plain hd h1 h2)], ?_⟩
  have hl : (dir ++ base).getLast? ≠ some 47 := by
    obtain ⟨b, hb⟩ := Option.isSome_iff_exists.1 (List.getLast?_isSome.2 h0)
    rw [List.getLast?_append, hb]
    intro h
    have h : b = 47 := by simpa using h
    exact h1 (h ▸ List.mem_of_getLast? hb)
  rw [archiveName, suffix_ext (e := bs ".zip") (by simp [h0]) hl (by decide), if_neg (by decide)]

/-- **C120** is false for the name: the archive for `wifinfo-1.2` has no extension. -/
theorem c120_refuted_name : archiveName (bs "wifinfo-1.2") = bs "wifinfo-1.2" := by decide

example : archiveName (bs "dist/wifinfo") = bs "dist/wifinfo.zip" ∧ archiveName (bs "wifinfo.zip") = bs "wifinfo.zip" := by decide

end Wifinfo
