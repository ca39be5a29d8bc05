import Verif.Spec.Passive
import Verif.Spec.Run

/-!
# Specification: repeated days (C111)
-/

namespace HLC.Spec

variable {I J : Type} {N : ℕ}

/-- From step `a` on, every step before step `b` reads the same record as the step `q` steps before it; negative numbers count from the end of the
year. -/
def Repeats (A : Fin N → Record I J) (q : ℕ) (a b : ℤ) : Prop :=
  ∀ n : ℤ, a ≤ n → n + q < b → ∀ k k' : Fin N, ((k : ℤ) = n ∨ (n < 0 ∧ (k : ℤ) = n + N)) →
    ((k' : ℤ) = n + q ∨ (n + q < 0 ∧ (k' : ℤ) = n + q + N)) → A k' = A k

/-- The steps `ns` again and again: day number `e` begins in state `st e` and has the results `day e`. -/
structure Days {I J : Type} [Fintype I] [DecidableEq I] [Fintype J] [DecidableEq J] {N : ℕ} (ss : PreCalc I J N) (dt : ℝ) (ns : List ℤ)
    (st : ℕ → Cond I J) (day : ℕ → List (TickVars I J)) : Prop where
  run : ∀ e, Run ss dt (st e) ns (day e)
  next : ∀ e, st (e + 1) = after (st e) (day e)

end HLC.Spec
