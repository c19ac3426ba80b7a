import Verif.Model.Utils
import Mathlib.Data.List.Nodup
/-
Numbered ids are different.
-/
namespace HP

theorem toString_nat_inj {a b : Nat} (h : toString a = toString b) : a = b := by
  have h' : Nat.toDigits 10 a = Nat.toDigits 10 b := by
    rw [Nat.toString_eq_repr, Nat.toString_eq_repr] at h
    rw [← Nat.toList_repr, ← Nat.toList_repr, h]
  have := congrArg (fun l => Nat.ofDigitChars 10 l 0) h'
  simpa [Nat.ofDigitChars_ten_toDigits] using this

theorem numbered_inj {pre : String} {a b : Nat} (h : pre ++ toString a = pre ++ toString b) : a = b := by
  apply toString_nat_inj
  have := congrArg String.toList h
  rw [String.toList_append, String.toList_append] at this
  exact String.toList_inj.1 (List.append_cancel_left this)

/-- `n` numbered items of size 1 x 1 -/
def unitItems (n : Nat) : PyDict String Dim := (List.range n).map (fun k => ("item-" ++ toString k, ⟨1, 1⟩))

theorem unitItems_nodup (n : Nat) : ((unitItems n).map (·.1)).Nodup := by
  unfold unitItems
  rw [List.map_map]
  exact List.Nodup.map_on (fun a _ b _ h => numbered_inj h) List.nodup_range

end HP
