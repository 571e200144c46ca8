import Verif.Lemmas.LayoutTree
import Verif.Lemmas.Theme.Deutsche
import Verif.Lemmas.Theme.Flower
import Verif.Lemmas.Theme.Kotobuki
import Verif.Lemmas.Theme.Minimal
import Verif.Lemmas.Theme.Nature
import Verif.Lemmas.Theme.Neon
import Verif.Spec.Palette
/-
The plain styles are plain.
-/
namespace Bglib
open Spec Img

theorem deutsche_plain : plainLooks Deutsche.rules deutsche = true := by decide +kernel

theorem flower_plain : plainLooks Flower.rules flower = true := by decide +kernel

theorem kotobuki_plain : plainLooks Kotobuki.rules kotobuki = true := by decide +kernel

theorem minimal_plain : plainLooks Minimal.rules minimal = true := by decide +kernel

theorem nature_plain : plainLooks Nature.rules nature = true := by decide +kernel

theorem neon_plain : plainLooks Neon.rules neon = true := by decide +kernel

theorem plain_ready (s : Text × List Text × Palette) (h : s ∈ plainStyles) :
    ∃ rules, loadCss s.1 s.2.1 = .ok rules ∧ plainLooks rules s.2.2 = true ∧ s.2.2.chequer.1 ≠ s.2.2.chequer.2 := by
  simp only [plainStyles, List.mem_cons, List.not_mem_nil, or_false] at h
  rcases h with rfl | rfl | rfl | rfl | rfl | rfl
  · exact ⟨_, Deutsche.load, deutsche_plain, by decide⟩
  · exact ⟨_, Flower.load, flower_plain, by decide⟩
  · exact ⟨_, Kotobuki.load, kotobuki_plain, by decide⟩
  · exact ⟨_, Minimal.load, minimal_plain, by decide⟩
  · exact ⟨_, Nature.load, nature_plain, by decide⟩
  · exact ⟨_, Neon.load, neon_plain, by decide⟩

end Bglib
