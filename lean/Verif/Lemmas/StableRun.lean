import Verif.Lemmas.Stable

/-!
# Forward error of one surface and of `run`
-/

namespace Booz
open Spec

section
variable {J : Inputs ℝ} {d : Dims} {K : ℝ}

namespace Stable

theorem lastZero {f : ∀ M : Mach J d K, ℕ → M.α} {g : ℕ → ℝ} {o : ∀ M : Mach J d K, M.α} {o0 : ℝ}
    (ho : Stable o o0) : ∀ n, (∀ k < n, Stable (fun M => f M k) (g k)) →
    Stable (fun M => Booz.lastZero M.I (f M) (o M) n) (Booz.lastZero J g o0 n)
  | 0, _ => ho
  | n + 1, h => by
    have ih := lastZero ho n fun k hk => h k (Nat.lt_succ_of_lt hk)
    simp only [Booz.lastZero, Mach.xm_nyq, Mach.xn_nyq]
    split
    · exact h n (Nat.lt_succ_self n)
    · exact ih

section surface
variable {js : ℕ} (hJ : RunReady J d) (hK : 0 ≤ K) (hj : js < d.ns)
include hJ hK hj

theorem rmnc {k : ℕ} (hk : k < d.mnmax) :
    Stable (fun M : Mach J d K => ev M.I.rmnc k js) (ev J.rmnc k js) :=
  of_near hK fun M => MatNear.val M.near.rmnc M.ready.rmnc hJ.rmnc _ _ hk hj
theorem zmns {k : ℕ} (hk : k < d.mnmax) :
    Stable (fun M : Mach J d K => ev M.I.zmns k js) (ev J.zmns k js) :=
  of_near hK fun M => MatNear.val M.near.zmns M.ready.zmns hJ.zmns _ _ hk hj
theorem lmns {k : ℕ} (hk : k < d.mnmax) :
    Stable (fun M : Mach J d K => ev M.I.lmns k js) (ev J.lmns k js) :=
  of_near hK fun M => MatNear.val M.near.lmns M.ready.lmns hJ.lmns _ _ hk hj
theorem bmnc {k : ℕ} (hk : k < d.mnq) :
    Stable (fun M : Mach J d K => ev M.I.bmnc k js) (ev J.bmnc k js) :=
  of_near hK fun M => MatNear.val M.near.bmnc M.ready.bmnc hJ.bmnc _ _ hk hj
theorem bsubumnc {k : ℕ} (hk : k < d.mnq) :
    Stable (fun M : Mach J d K => ev M.I.bsubumnc k js) (ev J.bsubumnc k js) :=
  of_near hK fun M => MatNear.val M.near.bsubumnc M.ready.bsubumnc hJ.bsubumnc _ _ hk hj
theorem bsubvmnc {k : ℕ} (hk : k < d.mnq) :
    Stable (fun M : Mach J d K => ev M.I.bsubvmnc k js) (ev J.bsubvmnc k js) :=
  of_near hK fun M => MatNear.val M.near.bsubvmnc M.ready.bsubvmnc hJ.bsubvmnc _ _ hk hj
theorem rmns (ha : d.asym = true) {k : ℕ} (hk : k < d.mnmax) :
    Stable (fun M : Mach J d K => ev M.I.rmns k js) (ev J.rmns k js) :=
  of_near hK fun M => MatNear.val (M.near.rmns ha) (M.ready.rmns ha) (hJ.rmns ha) _ _ hk hj
theorem zmnc (ha : d.asym = true) {k : ℕ} (hk : k < d.mnmax) :
    Stable (fun M : Mach J d K => ev M.I.zmnc k js) (ev J.zmnc k js) :=
  of_near hK fun M => MatNear.val (M.near.zmnc ha) (M.ready.zmnc ha) (hJ.zmnc ha) _ _ hk hj
theorem lmnc (ha : d.asym = true) {k : ℕ} (hk : k < d.mnmax) :
    Stable (fun M : Mach J d K => ev M.I.lmnc k js) (ev J.lmnc k js) :=
  of_near hK fun M => MatNear.val (M.near.lmnc ha) (M.ready.lmnc ha) (hJ.lmnc ha) _ _ hk hj
theorem bmns (ha : d.asym = true) {k : ℕ} (hk : k < d.mnq) :
    Stable (fun M : Mach J d K => ev M.I.bmns k js) (ev J.bmns k js) :=
  of_near hK fun M => MatNear.val (M.near.bmns ha) (M.ready.bmns ha) (hJ.bmns ha) _ _ hk hj
theorem bsubumns (ha : d.asym = true) {k : ℕ} (hk : k < d.mnq) :
    Stable (fun M : Mach J d K => ev M.I.bsubumns k js) (ev J.bsubumns k js) :=
  of_near hK fun M => MatNear.val (M.near.bsubumns ha) (M.ready.bsubumns ha) (hJ.bsubumns ha) _ _ hk hj
theorem bsubvmns (ha : d.asym = true) {k : ℕ} (hk : k < d.mnq) :
    Stable (fun M : Mach J d K => ev M.I.bsubvmns k js) (ev J.bsubvmns k js) :=
  of_near hK fun M => MatNear.val (M.near.bsubvmns ha) (M.ready.bsubvmns ha) (hJ.bsubvmns ha) _ _ hk hj

theorem iotaV : Stable (fun M : Mach J d K => Booz.iotaV M.I js) (Booz.iotaV J js) :=
  of_near hK fun M => VecNear.val M.near.iota M.ready.iota hJ.iota _ _ hj
theorem s_in : Stable (fun M : Mach J d K => M.I.s_in.val (ofInt 0) js) (J.s_in.val (ofInt 0) js) :=
  of_near hK fun M => VecNear.val M.near.s_in M.ready.s_in hJ.s_in _ _ hj

theorem wS {k : ℕ} (hk : k < d.mnq) : Stable (fun M : Mach J d K => Booz.wS M.I js k) (Booz.wS J js k) := by
  simp only [Booz.wS, Mach.xm_nyq, Mach.xn_nyq]
  split
  · rename_i h
    exact (bsubumnc hJ hK hj hk).div (int _) (Int.cast_ne_zero.2 h)
  · split
    · rename_i h
      exact (bsubvmnc hJ hK hj hk).neg.div (int _) (Int.cast_ne_zero.2 h)
    · exact int 0

theorem wC (ha : d.asym = true) {k : ℕ} (hk : k < d.mnq) :
    Stable (fun M : Mach J d K => Booz.wC M.I js k) (Booz.wC J js k) := by
  simp only [Booz.wC, Mach.xm_nyq, Mach.xn_nyq]
  split
  · rename_i h
    exact (bsubumns hJ hK hj ha hk).neg.div (int _) (Int.cast_ne_zero.2 h)
  · split
    · rename_i h
      exact (bsubvmns hJ hK hj ha hk).div (int _) (Int.cast_ne_zero.2 h)
    · exact int 0

theorem curI : Stable (fun M : Mach J d K => Booz.curI M.I d js) (Booz.curI J d js) :=
  lastZero (int 0) _ fun _ hk => bsubumnc hJ hK hj hk

theorem curG : Stable (fun M : Mach J d K => Booz.curG M.I d js) (Booz.curG J d js) :=
  lastZero (int 0) _ fun _ hk => bsubvmnc hJ hK hj hk

variable {X Y : ∀ M : Mach J d K, M.α} {r s : ℝ} (hX : Stable X r) (hY : Stable Y s)
include hX hY

theorem rP : Stable (fun M => Booz.rP M.I d js d.mnmax (X M) (Y M)) (Booz.rP J d js d.mnmax r s) := by
  simp only [Booz.rP, Mach.xm, Mach.xn]
  exact acc2 _ (fun k hk => (bC _ _ _ hX hY).mul (rmnc hJ hK hj hk))
    fun ha k hk => (bS _ _ _ hX hY).mul (rmns hJ hK hj ha hk)

theorem zP : Stable (fun M => Booz.zP M.I d js d.mnmax (X M) (Y M)) (Booz.zP J d js d.mnmax r s) := by
  simp only [Booz.zP, Mach.xm, Mach.xn]
  exact acc2 _ (fun k hk => (bS _ _ _ hX hY).mul (zmns hJ hK hj hk))
    fun ha k hk => (bC _ _ _ hX hY).mul (zmnc hJ hK hj ha hk)

theorem lP : Stable (fun M => Booz.lP M.I d js d.mnmax (X M) (Y M)) (Booz.lP J d js d.mnmax r s) := by
  simp only [Booz.lP, Mach.xm, Mach.xn]
  exact acc2 _ (fun k hk => (bS _ _ _ hX hY).mul (lmns hJ hK hj hk))
    fun ha k hk => (bC _ _ _ hX hY).mul (lmnc hJ hK hj ha hk)

theorem ltP : Stable (fun M => Booz.ltP M.I d js d.mnmax (X M) (Y M)) (Booz.ltP J d js d.mnmax r s) := by
  simp only [Booz.ltP, Mach.xm, Mach.xn]
  exact acc2 _ (fun k hk => ((bC _ _ _ hX hY).mul (lmns hJ hK hj hk)).mul (int _))
    fun ha k hk => ((bS _ _ _ hX hY).neg.mul (lmnc hJ hK hj ha hk)).mul (int _)

theorem lzP : Stable (fun M => Booz.lzP M.I d js d.mnmax (X M) (Y M)) (Booz.lzP J d js d.mnmax r s) := by
  simp only [Booz.lzP, Mach.xm, Mach.xn]
  exact acc2 _ (fun k hk => ((bC _ _ _ hX hY).neg.mul (lmns hJ hK hj hk)).mul (int _))
    fun ha k hk => ((bS _ _ _ hX hY).mul (lmnc hJ hK hj ha hk)).mul (int _)

theorem wP : Stable (fun M => Booz.wP M.I d js d.mnq (X M) (Y M)) (Booz.wP J d js d.mnq r s) := by
  simp only [Booz.wP, Mach.xm_nyq, Mach.xn_nyq]
  exact acc2 _ (fun k hk => (bS _ _ _ hX hY).mul (wS hJ hK hj hk))
    fun ha k hk => (bC _ _ _ hX hY).mul (wC hJ hK hj ha hk)

theorem wtP : Stable (fun M => Booz.wtP M.I d js d.mnq (X M) (Y M)) (Booz.wtP J d js d.mnq r s) := by
  simp only [Booz.wtP, Mach.xm_nyq, Mach.xn_nyq]
  exact acc2 _ (fun k hk => ((bC _ _ _ hX hY).mul (wS hJ hK hj hk)).mul (int _))
    fun ha k hk => ((bS _ _ _ hX hY).neg.mul (wC hJ hK hj ha hk)).mul (int _)

theorem wzP : Stable (fun M => Booz.wzP M.I d js d.mnq (X M) (Y M)) (Booz.wzP J d js d.mnq r s) := by
  simp only [Booz.wzP, Mach.xm_nyq, Mach.xn_nyq]
  exact acc2 _ (fun k hk => ((bC _ _ _ hX hY).neg.mul (wS hJ hK hj hk)).mul (int _))
    fun ha k hk => ((bS _ _ _ hX hY).mul (wC hJ hK hj ha hk)).mul (int _)

theorem bP : Stable (fun M => Booz.bP M.I d js d.mnq (X M) (Y M)) (Booz.bP J d js d.mnq r s) := by
  simp only [Booz.bP, Mach.xm_nyq, Mach.xn_nyq]
  exact acc2 _ (fun k hk => (bC _ _ _ hX hY).mul (bmnc hJ hK hj hk))
    fun ha k hk => (bS _ _ _ hX hY).mul (bmns hJ hK hj ha hk)

omit hX hY in
theorem gi : Stable (fun M : Mach J d K => Booz.gi M.I d js) (Booz.gi J d js) :=
  (curG hJ hK hj).add ((iotaV hJ hK hj).mul (curI hJ hK hj))

omit hX hY in
theorem oneOverGI (h0 : Booz.gi J d js ≠ 0) :
    Stable (fun M : Mach J d K => Booz.oneOverGI M.I d js) (Booz.oneOverGI J d js) := by
  have := (int (π := Mach.toMachine (J := J) (d := d) (K := K)) 1).div (gi hJ hK hj) h0
  exact this

theorem nuV (h0 : Booz.gi J d js ≠ 0) :
    Stable (fun M => Booz.nuV M.I d js (X M) (Y M)) (Booz.nuV J d js r s) :=
  (oneOverGI hJ hK hj h0).mul ((wP hJ hK hj hX hY).sub ((curI hJ hK hj).mul (lP hJ hK hj hX hY)))

theorem thB (h0 : Booz.gi J d js ≠ 0) :
    Stable (fun M => Booz.thB M.I d js (X M) (Y M)) (Booz.thB J d js r s) :=
  (hX.add (lP hJ hK hj hX hY)).add ((iotaV hJ hK hj).mul (nuV hJ hK hj hX hY h0))

theorem zeB (h0 : Booz.gi J d js ≠ 0) :
    Stable (fun M => Booz.zeB M.I d js (X M) (Y M)) (Booz.zeB J d js r s) :=
  hY.add (nuV hJ hK hj hX hY h0)

theorem nuZ (h0 : Booz.gi J d js ≠ 0) :
    Stable (fun M => Booz.nuZ M.I d js (X M) (Y M)) (Booz.nuZ J d js r s) :=
  (oneOverGI hJ hK hj h0).mul ((wzP hJ hK hj hX hY).sub ((curI hJ hK hj).mul (lzP hJ hK hj hX hY)))

theorem nuT (h0 : Booz.gi J d js ≠ 0) :
    Stable (fun M => Booz.nuT M.I d js (X M) (Y M)) (Booz.nuT J d js r s) :=
  (oneOverGI hJ hK hj h0).mul ((wtP hJ hK hj hX hY).sub ((curI hJ hK hj).mul (ltP hJ hK hj hX hY)))

theorem dBdV (h0 : Booz.gi J d js ≠ 0) :
    Stable (fun M => Booz.dBdV M.I d js (X M) (Y M)) (Booz.dBdV J d js r s) :=
  (((int 1).add (ltP hJ hK hj hX hY)).mul ((int 1).add (nuZ hJ hK hj hX hY h0))).add
    (((iotaV hJ hK hj).sub (lzP hJ hK hj hX hY)).mul (nuT hJ hK hj hX hY h0))

theorem jacB (h0 : Booz.bP J d js d.mnq r s ≠ 0) :
    Stable (fun M => Booz.jacB M.I d js (X M) (Y M)) (Booz.jacB J d js r s) :=
  (gi hJ hK hj).div ((bP hJ hK hj hX hY).mul (bP hJ hK hj hX hY)) (mul_ne_zero h0 h0)

end surface

theorem wt {X : ∀ M : Mach J d K, M.α} {r : ℝ} (hX : Stable X r) (j : ℕ) :
    Stable (fun M => Booz.wt d j (X M)) (Booz.wt d j r) := by
  unfold Booz.wt
  split
  · exact half.mul hX
  · exact hX

theorem fac0 : Stable (fun M : Mach J d K => (Booz.fac0 d : M.α)) (Booz.fac0 d) := by
  have hz : 0 < d.nz := by unfold Dims.nz; split <;> omega
  unfold Booz.fac0
  split
  · refine (int 2).div (int _) ?_
    have : 0 < d.nt := by unfold Dims.nt; omega
    have := mul_pos (Int.natCast_pos.2 this) (Int.natCast_pos.2 hz)
    exact Int.cast_ne_zero.2 this.ne'
  · refine (int 2).div (int _) ?_
    have : 0 < (d.nu2 : ℤ) - 1 := by unfold Dims.nu2; omega
    have := mul_pos this (Int.natCast_pos.2 hz)
    exact Int.cast_ne_zero.2 this.ne'

theorem facK (k : ℕ) : Stable (fun M : Mach J d K => (Booz.facK d k : M.α)) (Booz.facK d k) := by
  unfold Booz.facK
  split
  · exact fac0.mul half
  · exact fac0

section coef
variable {js : ℕ} (hJ : RunReady J d) (hK : 0 ≤ K) (hj : js < d.ns) (h0 : Booz.gi J d js ≠ 0)
include hJ hK hj h0

theorem tC (k j : ℕ) : Stable (fun M : Mach J d K => Booz.tC M.I d js k j) (Booz.tC J d js k j) := by
  have hX := gridT (π := Mach.toMachine (J := J) (d := d) (K := K)) d j
  have hY := gridZ (π := Mach.toMachine (J := J) (d := d) (K := K)) d hJ.nfp_pos j
  have ht := thB hJ hK hj hX hY h0
  have hz := (int (d.nfp : ℤ)).mul (zeB hJ hK hj hX hY h0)
  exact (((((ht.cosT _).wt j).mul (hz.cosT _)).add
    ((((ht.sinT _).wt j).mul (hz.sinT _)).mul (int _))).mul (dBdV hJ hK hj hX hY h0)).mul (facK k)

theorem tS (k j : ℕ) : Stable (fun M : Mach J d K => Booz.tS M.I d js k j) (Booz.tS J d js k j) := by
  have hX := gridT (π := Mach.toMachine (J := J) (d := d) (K := K)) d j
  have hY := gridZ (π := Mach.toMachine (J := J) (d := d) (K := K)) d hJ.nfp_pos j
  have ht := thB hJ hK hj hX hY h0
  have hz := (int (d.nfp : ℤ)).mul (zeB hJ hK hj hX hY h0)
  exact (((((ht.sinT _).wt j).mul (hz.cosT _)).sub
    ((((ht.cosT _).wt j).mul (hz.sinT _)).mul (int _))).mul (dBdV hJ hK hj hX hY h0)).mul (facK k)

end coef

theorem coefF {T : ∀ M : Mach J d K, ℕ → ℕ → M.α} {T0 : ℕ → ℕ → ℝ}
    {v : ∀ M : Mach J d K, M.α → M.α → M.α} {v0 : ℝ → ℝ → ℝ} (k : ℕ)
    (hT : ∀ j, Stable (fun M => T M k j) (T0 k j))
    (hv : ∀ j, Stable (fun M => v M (Booz.gridT d j) (Booz.gridZ d j)) (v0 (Booz.gridT d j) (Booz.gridZ d j))) :
    Stable (fun M => Booz.coefF d (T M) (v M) (ofInt 0) k) (Booz.coefF d T0 v0 (ofInt 0) k) :=
  foldAdd (int 0) _ fun j _ => (hT j).mul (hv j)

end Stable

end
end Booz
