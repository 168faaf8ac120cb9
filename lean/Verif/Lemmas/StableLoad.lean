import Verif.Lemmas.Stable
import Verif.Lemmas.LoadMain
import Verif.Spec.RoundingLoad

/-!
# Forward error of `init_from_vmec`
-/

namespace Booz
open Spec

theorem Vec.val_of_rdN {β : Type} {v : Vec β} {i : ℕ} {x : β} (x0 : β) (h : v.rdN i = .ok x) :
    v.val x0 i = x := by
  unfold Vec.rdN at h
  unfold Vec.val
  split at h
  · rename_i y hy
    cases h
    rw [hy]
    rfl
  · cases h
  · cases h

theorem Mat.val_of_rdN {β : Type} {a : Mat β} {i j : ℕ} {x : β} (x0 : β) (h : a.rdN i j = .ok x) :
    a.val x0 i j = x := by
  unfold Mat.rdN at h
  split at h
  · exact Vec.val_of_rdN x0 h
  · cases h

/-- A machine with the VMEC data it is given. -/
structure MachL (B : VmecArgs ℝ) (ns : ℤ) (z : Sizes) (K : ℝ) extends Machine where
  A : VmecArgs α
  near : ArgsNear fin val ns z (K * u) A B

namespace Stable
section
variable {ι : Type 1} {π : ι → Machine}

theorem hsV {ns : ℤ} (h : 2 ≤ ns) : Stable (fun M : ι => (Booz.hsV ns : (π M).α)) (Booz.hsV ns) := by
  refine (int 1).div ((int ns).sub (int 1)) ?_
  have : (2 : ℝ) ≤ (ns : ℝ) := by exact_mod_cast h
  show (ns : ℝ) - ((1 : ℤ) : ℝ) ≠ 0
  rw [Int.cast_one]
  intro h
  linarith

theorem hsV_pos {ns : ℤ} (h : 2 ≤ ns) : 0 < (Booz.hsV ns : ℝ) := by
  have : (2 : ℝ) ≤ (ns : ℝ) := by exact_mod_cast h
  show 0 < ((1 : ℤ) : ℝ) / ((ns : ℝ) - ((1 : ℤ) : ℝ))
  rw [Int.cast_one]
  exact div_pos one_pos (by linarith)

theorem sfV_pos {ns : ℤ} (h : 2 ≤ ns) (k : ℕ) : 0 < (Booz.sfV ns k : ℝ) := by
  unfold Booz.sfV
  split
  · show 0 < ((1 : ℤ) : ℝ)
    norm_num
  · rename_i hk
    have : (0 : ℝ) < ((k : ℤ) : ℝ) := by exact_mod_cast Nat.pos_of_ne_zero hk
    exact Real.sqrt_pos.2 (mul_pos (hsV_pos h) this)

theorem sfV {ns : ℤ} (h : 2 ≤ ns) (k : ℕ) : Stable (fun M : ι => (Booz.sfV ns k : (π M).α)) (Booz.sfV ns k) := by
  unfold Booz.sfV
  split
  · exact int 1
  · rename_i hk
    have : (0 : ℝ) < ((k : ℤ) : ℝ) := by exact_mod_cast Nat.pos_of_ne_zero hk
    exact ((hsV h).mul (int _)).sqrt (mul_pos (hsV_pos h) this)

theorem sinV {ns : ℤ} (h : 2 ≤ ns) (k : ℕ) : Stable (fun M : ι => (Booz.sinV ns k : (π M).α)) (Booz.sinV ns k) :=
  (hsV h).mul ((int _).add half)

theorem shV {ns : ℤ} (h : 2 ≤ ns) (k : ℕ) : Stable (fun M : ι => (Booz.shV ns k : (π M).α)) (Booz.shV ns k) := by
  refine (sinV h k).sqrt ?_
  refine mul_pos (hsV_pos h) ?_
  have : (0 : ℝ) ≤ ((k : ℤ) : ℝ) := by positivity
  show 0 < ((k : ℤ) : ℝ) + 1 / 2
  linarith

theorem interpV {ns : ℤ} (h : 2 ≤ ns) {m : ℤ} (h3 : m = 1 → 3 ≤ ns) {a : ∀ M : ι, Mat (π M).α} {b : Mat ℝ} {j k : ℕ}
    (hk : (k : ℤ) < ns - 1)
    (hab : ∀ i : ℕ, (i : ℤ) < ns → Stable (fun M => ev (a M) j i) (ev b j i)) :
    Stable (fun M => Booz.interpV ns m (a M) j k) (Booz.interpV ns m b j k) := by
  unfold Booz.interpV
  split
  · exact half.mul ((hab k (by omega)).add (hab (k + 1) (by omega)))
  · split
    · rename_i hm
      have := h3 hm.1
      exact (((threeHalves.mul (hab 1 (by omega))).div (sfV h 1) (sfV_pos h 1).ne').sub
        ((half.mul (hab 2 (by omega))).div (sfV h 2) (sfV_pos h 2).ne')).mul (shV h 0)
    · exact (half.mul (((hab k (by omega)).div (sfV h k) (sfV_pos h k).ne').add
        ((hab (k + 1) (by omega)).div (sfV h (k + 1)) (sfV_pos h (k + 1)).ne'))).mul (shV h k)

theorem interpMat {ns : ℤ} (h : 2 ≤ ns) {xm : Vec ℤ} {mn n : ℕ} (h3 : ∀ j < mn, xm.val 0 j = 1 → 3 ≤ ns)
    (hn : (n : ℤ) = ns - 1) {a : ∀ M : ι, Mat (π M).α} {b : Mat ℝ}
    (hab : ∀ j < mn, ∀ i : ℕ, (i : ℤ) < ns → Stable (fun M => ev (a M) j i) (ev b j i)) :
    Linear π (fun M e => MatNear (π M).fin (π M).val mn n e (Booz.interpMat ns xm mn n (a M)) (Booz.interpMat ns xm mn n b)) ∧
      Grows (fun M e => MatNear (π M).fin (π M).val mn n e (Booz.interpMat ns xm mn n (a M)) (Booz.interpMat ns xm mn n b)) :=
  mat fun j hj k hk => interpV h (h3 j hj) (by omega) (hab j hj)

theorem shiftMat {ns : ℤ} {mn n : ℕ} (hn : (n : ℤ) = ns - 1) {a : ∀ M : ι, Mat (π M).α} {b : Mat ℝ}
    (hab : ∀ j < mn, ∀ i : ℕ, (i : ℤ) < ns → Stable (fun M => ev (a M) j i) (ev b j i)) :
    Linear π (fun M e => MatNear (π M).fin (π M).val mn n e (Booz.shiftMat mn n (a M)) (Booz.shiftMat mn n b)) ∧
      Grows (fun M e => MatNear (π M).fin (π M).val mn n e (Booz.shiftMat mn n (a M)) (Booz.shiftMat mn n b)) :=
  mat fun j hj k hk => hab j hj (k + 1) (by omega)

end

theorem of_mat {B : VmecArgs ℝ} {ns : ℤ} {z : Sizes} {K : ℝ} (hK : 0 ≤ K)
    {a : ∀ M : MachL B ns z K, Mat M.α} {b : Mat ℝ} {mn : ℕ}
    (h : ∀ M : MachL B ns z K, MatNear M.fin M.val mn ns.toNat (K * M.u) (a M) b) :
    ∀ j < mn, ∀ i : ℕ, (i : ℤ) < ns → Stable (fun M : MachL B ns z K => ev (a M) j i) (ev b j i) := by
  intro j hj i hi
  refine of_near hK fun M => ?_
  obtain ⟨x, y, h1, h2, h3⟩ := h M j hj i (by omega)
  show M.fin ((a M).val (ofInt 0) j i) ∧ |M.val ((a M).val (ofInt 0) j i) - b.val (ofInt 0) j i| ≤ K * M.u
  rw [Mat.val_of_rdN _ h1, Mat.val_of_rdN _ h2]
  exact h3

end Stable
end Booz
