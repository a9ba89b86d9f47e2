import Mathlib.Data.Real.Basic
import Mathlib.Data.Fintype.Basic
import Mathlib.Data.Fintype.OfMap
import Mathlib.Order.Fin.Basic
import Mathlib.Data.Fin.VecNotation
import Mathlib.Tactic.FinCases
import Mathlib.Tactic.NormNum
import Verif.Spec

/-! Small facts about arrays written out as literals.  They are used only by the `example`s beside the theorems, each of
which applies the theorem to concrete inputs and so shows that its hypotheses can be met together. -/
namespace Case

theorem sm2 {a b : ℝ} (h : a < b) : StrictMono ![a, b] := by
  rw [Fin.strictMono_iff_lt_succ]; intro i; fin_cases i; simpa

theorem sm3 {a b c : ℝ} (h : a < b) (h' : b < c) : StrictMono ![a, b, c] := by
  rw [Fin.strictMono_iff_lt_succ]; intro i; fin_cases i <;> simpa

theorem sm4 {a b c d : ℝ} (h : a < b) (h' : b < c) (h'' : c < d) : StrictMono ![a, b, c, d] := by
  rw [Fin.strictMono_iff_lt_succ]; intro i; fin_cases i <;> simpa

theorem sm5 {a b c d e : ℝ} (h : a < b) (h' : b < c) (h'' : c < d) (h3 : d < e) : StrictMono ![a, b, c, d, e] := by
  rw [Fin.strictMono_iff_lt_succ]; intro i; fin_cases i <;> simpa

theorem all2 {p : ℝ → Prop} {a b : ℝ} (ha : p a) (hb : p b) : ∀ i, p (![a, b] i) := by
  intro i; fin_cases i <;> assumption

theorem all3 {p : ℝ → Prop} {a b c : ℝ} (ha : p a) (hb : p b) (hc : p c) : ∀ i, p (![a, b, c] i) := by
  intro i; fin_cases i <;> assumption

theorem all4 {p : ℝ → Prop} {a b c d : ℝ} (ha : p a) (hb : p b) (hc : p c) (hd : p d) : ∀ i, p (![a, b, c, d] i) := by
  intro i; fin_cases i <;> assumption

theorem prob2 {a b : ℝ} (ha : 0 ≤ a) (hb : 0 ≤ b) (h : a + b = 1) : Spec.IsProbVector ![a, b] :=
  ⟨all2 ha hb, by simpa [Fin.sum_univ_succ] using h⟩

theorem prob3 {a b c : ℝ} (ha : 0 ≤ a) (hb : 0 ≤ b) (hc : 0 ≤ c) (h : a + b + c = 1) : Spec.IsProbVector ![a, b, c] :=
  ⟨all3 ha hb hc, by simpa [Fin.sum_univ_succ, add_assoc] using h⟩

end Case

/-- closes numerical facts about the entries of literal arrays -/
macro "vec" : tactic => `(tactic| first | (norm_num; done) | (norm_num [Fin.last]; done) | (simp [Fin.last]; norm_num; done))
