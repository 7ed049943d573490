import Verif.Lemmas.NumText
import Verif.Spec.NumberTexts
/-!
# Any text against a number
-/

namespace BoolParser
open Spec

theorem str_not_numeric (s : JStr) : (getDataType (.str s)).numeric = false ∧ getDataType (.str s) ≠ .boolean := by
  simp only [getDataType]
  split
  · exact ⟨rfl, by decide⟩
  · split <;> exact ⟨rfl, by decide⟩

/-- A text that stands for no number of the other operand's type cannot be ordered against it. -/
theorem compare_no_number {o : CmpOp} (ho : o ≠ .eq) (ho' : o ≠ .ne) {s : JStr} {b : Value} {y : ℚ} (hb : Num b y)
    (h : ∀ x, Numeral s x → ¬ Accepts b x) : Cond.compare o (.str s) b = .error .invalidDataType := by
  by_cases hs : ∃ x, Numeral s x
  · obtain ⟨x, hx⟩ := hs
    exact compare_numtext_fails ho ho' hx hb (h x hx)
  · have hp : Dec.parse s = none := not_numeral (fun x hx => hs ⟨x, hx⟩)
    obtain ⟨hn, hnb⟩ := str_not_numeric s
    have hbn := num_numeric hb
    have tb : getDataType b ≠ .boolean := by intro e; rw [e] at hbn; cases hbn
    have h1 : isValid (getDataType b) (.str s) = .ok false := by
      cases hb <;> simp [getDataType, isValid, asInt, asLong, asDec, Value.text, hp]
    have hval : validate (.str s) (getDataType (.str s)) b (getDataType b) = .error .invalidDataType := by
      unfold validate
      rw [hbn, hn, h1]; rfl
    rw [compare_ord_sym ho ho' (by simp) (num_ne_null hb), if_neg (by simp [tb, hnb]), hval]; rfl

theorem rewritten_ascii {s t : JStr} (h : Rewritten s t) : asciiDigits s = asciiDigits t := by
  unfold Rewritten at h
  induction h with
  | nil => rfl
  | @cons c d s t h _ ih =>
    show asciiDigit c :: asciiDigits s = asciiDigit d :: asciiDigits t
    rw [ih]
    rcases h with rfl | ⟨n, h1, h2⟩
    · rfl
    · rw [digitOf_ascii h1, digitOf_ascii h2]

theorem rewritten_numeral {s t : JStr} (h : Rewritten s t) {x : ℚ} : Numeral s x ↔ Numeral t x := by
  rw [numeral_iff, numeral_iff]
  unfold Dec.parse
  rw [rewritten_ascii h]

end BoolParser
