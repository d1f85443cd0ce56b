import Verif.Lemmas.DrelItems
import Verif.Model.DrelTable
/-! # The tables fit the grammar -/
namespace Verif
namespace Drel
open LR

/-- The data for completeness. -/
def cert : Cert := ⟨fine, img, firsts, nulls, itemRows, N.input, accState⟩

theorem sound_ok : table.checkSound grammar past accState N.input = true := by decide +kernel

theorem halt_ok : table.checkHalt grammar 32 potRows potBounds = true := by decide +kernel

theorem rules_ok : cert.checkRules grammar = true := by decide +kernel

theorem ends_ok : cert.checkEnds table = true := by decide +kernel

theorem states_ok0 : (List.range 32).all (fun s => cert.checkState table (s + 0)) = true := by decide +kernel

theorem states_ok1 : (List.range 32).all (fun s => cert.checkState table (s + 32)) = true := by decide +kernel

theorem states_ok2 : (List.range 32).all (fun s => cert.checkState table (s + 64)) = true := by decide +kernel

theorem states_ok3 : (List.range 32).all (fun s => cert.checkState table (s + 96)) = true := by decide +kernel

theorem states_ok4 : (List.range 32).all (fun s => cert.checkState table (s + 128)) = true := by decide +kernel

theorem states_ok5 : (List.range 32).all (fun s => cert.checkState table (s + 160)) = true := by decide +kernel

theorem states_ok6 : (List.range 32).all (fun s => cert.checkState table (s + 192)) = true := by decide +kernel

theorem states_ok7 : (List.range 32).all (fun s => cert.checkState table (s + 224)) = true := by decide +kernel

theorem states_ok8 : (List.range 32).all (fun s => cert.checkState table (s + 256)) = true := by decide +kernel

end Drel
end Verif
