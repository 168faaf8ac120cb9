import Verif.Spec.RadialPlots
import Verif.Props.Modes

/-!
# Specification: which modes `modeplot` shows
-/

namespace Booz.Spec
open Plots

/-- The mode numbers in the labels of the curves of a figure. -/
def modeLabels {α : Type} (fig : List (Drawn α)) : List (ℤ × ℤ) :=
  fig.filterMap fun x => match x with
    | .curve _ (some (.mode m n)) _ _ => some (m, n)
    | _ => none

/-- A mode of the output list that may be drawn: (0,0) only if `B0`. -/
def MayShow (M N nfp : ℕ) (B0 : Bool) (p : ℤ × ℤ) : Prop := IsMode M N nfp p ∧ (B0 = false → p ≠ (0, 0))

/-- `draw` (argsort, parameters) shows the largest harmonics `c` up to errors `e`, whenever `argsort` sorts with respect to
`le`: as many modes as asked for, no two equal, in the order of decreasing magnitude, and none left out that is larger, where
each comparison may be wrong by `e`; harmonics of the removed helicity count as zero. -/
def ShowsLargest {α : Type} (le : α → α → Prop) (draw : (List α → List ℕ) → ModeArgs α → Fig α Unit) (M N nfp : ℕ)
    (c : ℤ → ℤ → ℝ) (e : ℝ) : Prop :=
  ∀ argsort : List α → List ℕ, (∀ keys, IsArgsort le keys (argsort keys)) →
    ∀ a : ModeArgs α, 0 ≤ a.nmodes → a.nmodes ≤ (if a.B0 then numModes M N else numModes M N - 1 : ℤ) →
    ∃ fig, draw argsort a [] = .ok () fig ∧ ((modeLabels fig).length : ℤ) = a.nmodes ∧ (modeLabels fig).Nodup ∧
      (∀ p ∈ modeLabels fig, MayShow M N nfp a.B0 p) ∧
      ((modeLabels fig).Pairwise fun p q =>
        shownValue a.remove true q.1 q.2 (c q.1 q.2) ≤ shownValue a.remove true p.1 p.2 (c p.1 p.2) + e) ∧
      ∀ p ∈ modeLabels fig, ∀ q, MayShow M N nfp a.B0 q → q ∉ modeLabels fig →
        shownValue a.remove true q.1 q.2 (c q.1 q.2) ≤ shownValue a.remove true p.1 p.2 (c p.1 p.2) + e

end Booz.Spec
