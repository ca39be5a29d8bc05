import Verif.Model.Panes

/-!
# Specification: light on a stack of panes (C102)

The panes `0 … n-1` stand one behind the other, light falls on the front of pane 0. Between two panes light goes to and fro.
-/

namespace HLC.Spec

open Glass (Pane)

/-- A pane that can exist and is not a perfect mirror: what is transmitted and what is reflected is not negative, together at most all, and
not everything is reflected. -/
structure Physical (p : Pane) : Prop where
  tauF : 0 ≤ p.tauF
  tauB : 0 ≤ p.tauB
  rhoF : 0 ≤ p.rhoF
  rhoB : 0 ≤ p.rhoB
  front : p.tauF + p.rhoF ≤ 1
  back : p.tauB + p.rhoB ≤ 1
  rhoF_lt : p.rhoF < 1
  rhoB_lt : p.rhoB < 1

/-- `front j` and `back j` are the light that arrives on the two sides of pane `j` if one unit falls on the stack: what leaves a pane towards
its neighbour arrives there, and no light falls on the back of the stack. -/
structure LightBalance {n : ℕ} (p : Fin (n + 1) → Pane) (front back : Fin (n + 1) → ℝ) : Prop where
  incident : front 0 = 1
  dark : back (Fin.last n) = 0
  forth : ∀ j : Fin n, front j.succ = (p j.castSucc).tauF * front j.castSucc + (p j.castSucc).rhoB * back j.castSucc
  fro : ∀ j : Fin n, back j.castSucc = (p j.succ).rhoF * front j.succ + (p j.succ).tauB * back j.succ

/-- What leaves the stack on its back. -/
def transmitted {n : ℕ} (p : Fin (n + 1) → Pane) (front back : Fin (n + 1) → ℝ) : ℝ :=
  (p (Fin.last n)).tauF * front (Fin.last n) + (p (Fin.last n)).rhoB * back (Fin.last n)

/-- What leaves the stack on its front. -/
def reflected {n : ℕ} (p : Fin (n + 1) → Pane) (front back : Fin (n + 1) → ℝ) : ℝ :=
  (p 0).rhoF * front 0 + (p 0).tauB * back 0

/-- What stays in pane `j`: the light that arrives there and is neither transmitted nor reflected. -/
def absorbed {n : ℕ} (p : Fin (n + 1) → Pane) (front back : Fin (n + 1) → ℝ) (j : Fin (n + 1)) : ℝ :=
  front j * (1 - (p j).tauF - (p j).rhoF) + back j * (1 - (p j).tauB - (p j).rhoB)

/-- The light on the panes after `k` passages between neighbouring panes, beginning in the dark. -/
def passages {n : ℕ} (p : Fin (n + 1) → Pane) : ℕ → (Fin (n + 1) → ℝ) × (Fin (n + 1) → ℝ)
  | 0 => (fun _ => 0, fun _ => 0)
  | k + 1 =>
    let l := passages p k
    (Fin.cases 1 fun j => (p j.castSucc).tauF * l.1 j.castSucc + (p j.castSucc).rhoB * l.2 j.castSucc,
      Fin.lastCases 0 fun j => (p j.succ).rhoF * l.1 j.succ + (p j.succ).tauB * l.2 j.succ)

/-- The same pane turned around. -/
def turned (p : Pane) : Pane := ⟨p.tauB, p.tauF, p.rhoB, p.rhoF⟩

end HLC.Spec
