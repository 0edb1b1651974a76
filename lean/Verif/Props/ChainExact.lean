import Verif.Props.Static
import Verif.Props.InstallExact

/-!
# C87, C104, exactly: from the sources to the browser for any folder
-/

namespace Wifinfo
open Spec

/-- **C87, exactly.**  The image of the data folder after any number of preparations, of any size that fits: it mounts, and the pages, the
version, the files and the list are those of the folder if and only if the device can read all the names. -/
theorem c87_exact {w : Tools} {src data : Tree} (hp : Prepared w src data) {size o k : Nat} {img : Str}
    (hi : create (imageFiles data) size = .image o k img) (hs : size < 2147483648) :
    ∃ fs, Erfs.begin img = .ok (true, fs) ∧
      ∀ b d e, OnImage e fs → (Site (imageFiles data) fs b d e ↔ Readable (imageFiles data) size) := by
  have h := image_longer hi (List.prefix_refl _)
  have hlen : img.length = size := (image_is hi).1.length
  refine ⟨_, h.mount (by omega), fun b d e he => ?_⟩
  rw [site_iff h (by omega) hp.sound.fileSet b d he, hlen]

/-- **C104, for all folders that can be read.**  As `c104_file_partial`, for every folder whose names the device can read: without the
63 bytes of contents or free space. -/
theorem c104_readable_partial {w : Tools} {src data : Tree} (hp : Prepared w src data) {size o k : Nat} {img : Str}
    (hi : create (imageFiles data) size = .image o k img) (hs : size < 2147483648) (hf : Readable (imageFiles data) size)
    {e : Env} {d : Device} {b : Build} {r : Req} {p : FsPath} {c : Str} {m : Nat} (hsrc : (p, Node.file c m) ∈ src)
    (hpub : PublicFile p) (hx : p.getLastD [] ∉ [bs ".DS_Store", bs ".git"]) (hm : r.method = .get) (hr : r.uri = 47 :: posix p) :
    ∃ fs, Erfs.begin img = .ok (true, fs) ∧
      (OnImage e fs → StaticOn e → Receives d b e r fs (made w (kindOf (p.getLastD [])) c)) := by
  have h := image_longer hi (List.prefix_refl _)
  have hlen : img.length = size := (image_is hi).1.length
  exact public_given hp (readable_carries h (by omega) hp.sound.fileSet (by rw [hlen]; exact hf)) hsrc hpub hx hm hr

/-- The sample folder: its names can be read in its image. -/
example : Readable (imageFiles sampleData) 650 := by
  have h := carries_image chain_image (chain_fits.usable sample_prepared.sound)
  have hlen : chainImage.length = 650 := (image_is chain_image).1.length
  intro pre f post e
  have hr := (roomy_iff ..).1 h.room pre f post e
  rw [hlen] at hr
  exact ⟨h.short f (by rw [e]; simp), hr⟩

end Wifinfo
