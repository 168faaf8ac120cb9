import Verif.Lemmas.RunOk
import Verif.Spec.Same

/-!
# What is computed for a surface depends only on the data of that surface
-/

namespace Booz
open Spec
variable {α : Type} [Arith α]

theorem acc2_congr' {a : Bool} {x x' y y' : Nat → α} {K : Nat} (h : ∀ k < K, x k = x' k)
    (h' : a = true → ∀ k < K, y k = y' k) : acc2 a x y K = acc2 a x' y' K := by
  induction K with
  | zero => rfl
  | succ K ih =>
    unfold acc2
    rw [ih (fun k hk => h k (by omega)) (fun ha k hk => h' ha k (by omega)), h K (by omega)]
    split
    · rename_i ha; rw [h' ha K (by omega)]
    · rfl

theorem foldAdd_congr {z : α} {f g : Nat → α} {K : Nat} (h : ∀ k < K, f k = g k) :
    foldAdd z f K = foldAdd z g K := by
  induction K with
  | zero => rfl
  | succ K ih =>
    unfold foldAdd
    rw [ih (fun k hk => h k (by omega)), h K (by omega)]

theorem lastZero_congr {I₁ I₂ : Inputs α} (hm : I₁.xm_nyq = I₂.xm_nyq) (hn : I₁.xn_nyq = I₂.xn_nyq)
    {f g : Nat → α} {z : α} {K : Nat} (h : ∀ k < K, f k = g k) :
    lastZero I₁ f z K = lastZero I₂ g z K := by
  induction K with
  | zero => rfl
  | succ K ih =>
    unfold lastZero
    rw [ih (fun k hk => h k (by omega)), h K (by omega), hm, hn]

/-- The parts of the dimensions that matter for the values. -/
structure DimAgree (d₁ d₂ : Dims) : Prop where
  asym : d₁.asym = d₂.asym
  M : d₁.M = d₂.M
  N : d₁.N = d₂.N
  nfp : d₁.nfp = d₂.nfp
  mnmax : d₁.mnmax = d₂.mnmax
  mnq : d₁.mnq = d₂.mnq

namespace DimAgree
variable {d₁ d₂ : Dims} (h : DimAgree d₁ d₂)
include h
theorem nt : d₁.nt = d₂.nt := by unfold Dims.nt; rw [h.M]
theorem nz : d₁.nz = d₂.nz := by unfold Dims.nz; rw [h.N]
theorem nu2 : d₁.nu2 = d₂.nu2 := by unfold Dims.nu2; rw [h.M]
theorem nu3 : d₁.nu3 = d₂.nu3 := by unfold Dims.nu3; rw [h.asym, h.nt, h.nu2]
theorem np : d₁.np = d₂.np := by unfold Dims.np; rw [h.nu3, h.nz]
theorem nmodes : d₁.nmodes = d₂.nmodes := by unfold Dims.nmodes; rw [h.M, h.N]
theorem gridT : (Booz.gridT d₁ : Nat → α) = Booz.gridT d₂ := by
  funext j; unfold Booz.gridT dTheta; rw [h.nz, h.nt]
theorem gridZ : (Booz.gridZ d₁ : Nat → α) = Booz.gridZ d₂ := by
  funext j; unfold Booz.gridZ dZeta; rw [h.nz, h.nfp]
theorem wt : (Booz.wt d₁ : Nat → α → α) = Booz.wt d₂ := by
  funext j x; unfold Booz.wt; rw [h.asym, h.nz, h.nu2]
theorem facK : (Booz.facK d₁ : Nat → α) = Booz.facK d₂ := by
  funext k; unfold Booz.facK fac0; rw [h.asym, h.nt, h.nz, h.nu2]
theorem chkIdx : Booz.chkIdx d₁ = Booz.chkIdx d₂ := by
  funext c; unfold Booz.chkIdx; rw [h.nt, h.nz]
end DimAgree

/-- Agreement of the values read for a surface. -/
structure ValAgree (d : Dims) (I₁ I₂ : Inputs α) (j₁ j₂ : Nat) : Prop where
  xm : I₁.xm = I₂.xm
  xn : I₁.xn = I₂.xn
  xm_nyq : I₁.xm_nyq = I₂.xm_nyq
  xn_nyq : I₁.xn_nyq = I₂.xn_nyq
  iota : iotaV I₁ j₁ = iotaV I₂ j₂
  rmnc : ∀ k < d.mnmax, ev I₁.rmnc k j₁ = ev I₂.rmnc k j₂
  zmns : ∀ k < d.mnmax, ev I₁.zmns k j₁ = ev I₂.zmns k j₂
  lmns : ∀ k < d.mnmax, ev I₁.lmns k j₁ = ev I₂.lmns k j₂
  bmnc : ∀ k < d.mnq, ev I₁.bmnc k j₁ = ev I₂.bmnc k j₂
  bsubumnc : ∀ k < d.mnq, ev I₁.bsubumnc k j₁ = ev I₂.bsubumnc k j₂
  bsubvmnc : ∀ k < d.mnq, ev I₁.bsubvmnc k j₁ = ev I₂.bsubvmnc k j₂
  rmns : d.asym = true → ∀ k < d.mnmax, ev I₁.rmns k j₁ = ev I₂.rmns k j₂
  zmnc : d.asym = true → ∀ k < d.mnmax, ev I₁.zmnc k j₁ = ev I₂.zmnc k j₂
  lmnc : d.asym = true → ∀ k < d.mnmax, ev I₁.lmnc k j₁ = ev I₂.lmnc k j₂
  bmns : d.asym = true → ∀ k < d.mnq, ev I₁.bmns k j₁ = ev I₂.bmns k j₂
  bsubumns : d.asym = true → ∀ k < d.mnq, ev I₁.bsubumns k j₁ = ev I₂.bsubumns k j₂
  bsubvmns : d.asym = true → ∀ k < d.mnq, ev I₁.bsubvmns k j₁ = ev I₂.bsubvmns k j₂

theorem Mat.Full.rdN {β : Type} {a : Mat β} {r c : Nat} (z : β) (h : a.Full r c) {i j : Nat} (hi : i < r)
    (hj : j < c) : a.rdN i j = .ok (a.val z i j) := by
  conv_lhs => rw [Mat.Full.eq_tab z h]
  exact Mat.rdN_tab hi hj

theorem ev_of_rdN {a b : Mat α} {r c₁ c₂ k j₁ j₂ : Nat} (h : SameCol r a b j₁ j₂) (ha : a.Full r c₁)
    (hb : b.Full r c₂) (h1 : j₁ < c₁) (h2 : j₂ < c₂) (hk : k < r) : ev a k j₁ = ev b k j₂ := by
  have := h k hk
  rw [Mat.Full.rdN (ofInt 0) ha hk h1, Mat.Full.rdN (ofInt 0) hb hk h2] at this
  exact Except.ok.inj this

theorem valAgree_of {d₁ d₂ : Dims} {I₁ I₂ : Inputs α} {j₁ j₂ : Nat} (h₁ : RunReady I₁ d₁)
    (h₂ : RunReady I₂ d₂) (hd : DimAgree d₁ d₂) (hj₁ : j₁ < d₁.ns) (hj₂ : j₂ < d₂.ns)
    (h : SameSurface d₁.asym I₁ I₂ j₁ j₂) : ValAgree d₁ I₁ I₂ j₁ j₂ := by
  have e1 := h₁.xm.1
  have e2 := h₁.xm_nyq.1
  have a2 := hd.asym
  refine ⟨h.xm, h.xn, h.xm_nyq, h.xn_nyq, ?_, ?_, ?_, ?_, ?_, ?_, ?_, ?_, ?_, ?_, ?_, ?_, ?_⟩
  · have := h.iota
    rw [h₁.iota.rdN (ofInt 0) hj₁, h₂.iota.rdN (ofInt 0) hj₂] at this
    exact Except.ok.inj this
  · intro k hk
    exact ev_of_rdN (e1 ▸ h.rmnc) h₁.rmnc (hd.mnmax ▸ h₂.rmnc) hj₁ hj₂ hk
  · intro k hk
    exact ev_of_rdN (e1 ▸ h.zmns) h₁.zmns (hd.mnmax ▸ h₂.zmns) hj₁ hj₂ hk
  · intro k hk
    exact ev_of_rdN (e1 ▸ h.lmns) h₁.lmns (hd.mnmax ▸ h₂.lmns) hj₁ hj₂ hk
  · intro k hk
    exact ev_of_rdN (e2 ▸ h.bmnc) h₁.bmnc (hd.mnq ▸ h₂.bmnc) hj₁ hj₂ hk
  · intro k hk
    exact ev_of_rdN (e2 ▸ h.bsubumnc) h₁.bsubumnc (hd.mnq ▸ h₂.bsubumnc) hj₁ hj₂ hk
  · intro k hk
    exact ev_of_rdN (e2 ▸ h.bsubvmnc) h₁.bsubvmnc (hd.mnq ▸ h₂.bsubvmnc) hj₁ hj₂ hk
  · intro ha k hk
    exact ev_of_rdN (e1 ▸ h.rmns ha) (h₁.rmns ha) (hd.mnmax ▸ h₂.rmns (a2 ▸ ha)) hj₁ hj₂ hk
  · intro ha k hk
    exact ev_of_rdN (e1 ▸ h.zmnc ha) (h₁.zmnc ha) (hd.mnmax ▸ h₂.zmnc (a2 ▸ ha)) hj₁ hj₂ hk
  · intro ha k hk
    exact ev_of_rdN (e1 ▸ h.lmnc ha) (h₁.lmnc ha) (hd.mnmax ▸ h₂.lmnc (a2 ▸ ha)) hj₁ hj₂ hk
  · intro ha k hk
    exact ev_of_rdN (e2 ▸ h.bmns ha) (h₁.bmns ha) (hd.mnq ▸ h₂.bmns (a2 ▸ ha)) hj₁ hj₂ hk
  · intro ha k hk
    exact ev_of_rdN (e2 ▸ h.bsubumns ha) (h₁.bsubumns ha) (hd.mnq ▸ h₂.bsubumns (a2 ▸ ha)) hj₁ hj₂ hk
  · intro ha k hk
    exact ev_of_rdN (e2 ▸ h.bsubvmns ha) (h₁.bsubvmns ha) (hd.mnq ▸ h₂.bsubvmns (a2 ▸ ha)) hj₁ hj₂ hk

section
variable {d₁ d₂ : Dims} {I₁ I₂ : Inputs α} {j₁ j₂ : Nat} (hd : DimAgree d₁ d₂)
  (h : ValAgree d₁ I₁ I₂ j₁ j₂)
include h

theorem wS_congr {k : Nat} (hk : k < d₁.mnq) : wS I₁ j₁ k = wS I₂ j₂ k := by
  unfold wS; rw [h.xm_nyq, h.xn_nyq, h.bsubumnc k hk, h.bsubvmnc k hk]

theorem wC_congr (ha : d₁.asym = true) {k : Nat} (hk : k < d₁.mnq) : wC I₁ j₁ k = wC I₂ j₂ k := by
  unfold wC; rw [h.xm_nyq, h.xn_nyq, h.bsubumns ha k hk, h.bsubvmns ha k hk]

include hd

theorem curI_congr : curI I₁ d₁ j₁ = curI I₂ d₂ j₂ := by
  unfold curI; rw [← hd.mnq]; exact lastZero_congr h.xm_nyq h.xn_nyq h.bsubumnc
theorem curG_congr : curG I₁ d₁ j₁ = curG I₂ d₂ j₂ := by
  unfold curG; rw [← hd.mnq]; exact lastZero_congr h.xm_nyq h.xn_nyq h.bsubvmnc

theorem rP_congr : rP I₁ d₁ j₁ d₁.mnmax = rP I₂ d₂ j₂ d₂.mnmax := by
  funext θ ζ; unfold rP; rw [← hd.mnmax, ← hd.asym, ← hd.nfp, ← h.xm, ← h.xn]
  exact acc2_congr' (fun k hk => by rw [h.rmnc k hk]) fun ha k hk => by rw [h.rmns ha k hk]
theorem zP_congr : zP I₁ d₁ j₁ d₁.mnmax = zP I₂ d₂ j₂ d₂.mnmax := by
  funext θ ζ; unfold zP; rw [← hd.mnmax, ← hd.asym, ← hd.nfp, ← h.xm, ← h.xn]
  exact acc2_congr' (fun k hk => by rw [h.zmns k hk]) fun ha k hk => by rw [h.zmnc ha k hk]
theorem lP_congr : lP I₁ d₁ j₁ d₁.mnmax = lP I₂ d₂ j₂ d₂.mnmax := by
  funext θ ζ; unfold lP; rw [← hd.mnmax, ← hd.asym, ← hd.nfp, ← h.xm, ← h.xn]
  exact acc2_congr' (fun k hk => by rw [h.lmns k hk]) fun ha k hk => by rw [h.lmnc ha k hk]
theorem ltP_congr : ltP I₁ d₁ j₁ d₁.mnmax = ltP I₂ d₂ j₂ d₂.mnmax := by
  funext θ ζ; unfold ltP; rw [← hd.mnmax, ← hd.asym, ← hd.nfp, ← h.xm, ← h.xn]
  exact acc2_congr' (fun k hk => by rw [h.lmns k hk]) fun ha k hk => by rw [h.lmnc ha k hk]
theorem lzP_congr : lzP I₁ d₁ j₁ d₁.mnmax = lzP I₂ d₂ j₂ d₂.mnmax := by
  funext θ ζ; unfold lzP; rw [← hd.mnmax, ← hd.asym, ← hd.nfp, ← h.xm, ← h.xn]
  exact acc2_congr' (fun k hk => by rw [h.lmns k hk]) fun ha k hk => by rw [h.lmnc ha k hk]
theorem wP_congr : wP I₁ d₁ j₁ d₁.mnq = wP I₂ d₂ j₂ d₂.mnq := by
  funext θ ζ; unfold wP; rw [← hd.mnq, ← hd.asym, ← hd.nfp, ← h.xm_nyq, ← h.xn_nyq]
  exact acc2_congr' (fun k hk => by rw [wS_congr h hk]) fun ha k hk => by rw [wC_congr h ha hk]
theorem wtP_congr : wtP I₁ d₁ j₁ d₁.mnq = wtP I₂ d₂ j₂ d₂.mnq := by
  funext θ ζ; unfold wtP; rw [← hd.mnq, ← hd.asym, ← hd.nfp, ← h.xm_nyq, ← h.xn_nyq]
  exact acc2_congr' (fun k hk => by rw [wS_congr h hk]) fun ha k hk => by rw [wC_congr h ha hk]
theorem wzP_congr : wzP I₁ d₁ j₁ d₁.mnq = wzP I₂ d₂ j₂ d₂.mnq := by
  funext θ ζ; unfold wzP; rw [← hd.mnq, ← hd.asym, ← hd.nfp, ← h.xm_nyq, ← h.xn_nyq]
  exact acc2_congr' (fun k hk => by rw [wS_congr h hk]) fun ha k hk => by rw [wC_congr h ha hk]
theorem bP_congr : bP I₁ d₁ j₁ d₁.mnq = bP I₂ d₂ j₂ d₂.mnq := by
  funext θ ζ; unfold bP; rw [← hd.mnq, ← hd.asym, ← hd.nfp, ← h.xm_nyq, ← h.xn_nyq]
  exact acc2_congr' (fun k hk => by rw [h.bmnc k hk]) fun ha k hk => by rw [h.bmns ha k hk]

theorem gi_congr : gi I₁ d₁ j₁ = gi I₂ d₂ j₂ := by
  unfold gi; rw [curG_congr hd h, h.iota, curI_congr hd h]
theorem nuV_congr : nuV I₁ d₁ j₁ = nuV I₂ d₂ j₂ := by
  funext θ ζ
  unfold nuV oneOverGI; rw [gi_congr hd h, wP_congr hd h, lP_congr hd h, curI_congr hd h]
theorem thB_congr : thB I₁ d₁ j₁ = thB I₂ d₂ j₂ := by
  funext θ ζ
  unfold thB; rw [nuV_congr hd h, lP_congr hd h, h.iota]
theorem zeB_congr : zeB I₁ d₁ j₁ = zeB I₂ d₂ j₂ := by
  funext θ ζ
  unfold zeB; rw [nuV_congr hd h]
theorem dBdV_congr : dBdV I₁ d₁ j₁ = dBdV I₂ d₂ j₂ := by
  funext θ ζ
  unfold dBdV nuZ nuT oneOverGI
  rw [gi_congr hd h, wzP_congr hd h, wtP_congr hd h, lzP_congr hd h, ltP_congr hd h, h.iota,
    curI_congr hd h]
theorem jacB_congr : jacB I₁ d₁ j₁ = jacB I₂ d₂ j₂ := by
  funext θ ζ
  unfold jacB; rw [gi_congr hd h, bP_congr hd h]
theorem tC_congr : tC I₁ d₁ j₁ = tC I₂ d₂ j₂ := by
  funext k j
  unfold tC
  rw [thB_congr hd h, zeB_congr hd h, dBdV_congr hd h, hd.gridT, hd.gridZ, hd.wt, hd.facK, hd.N, hd.nfp]
theorem tS_congr : tS I₁ d₁ j₁ = tS I₂ d₂ j₂ := by
  funext k j
  unfold tS
  rw [thB_congr hd h, zeB_congr hd h, dBdV_congr hd h, hd.gridT, hd.gridZ, hd.wt, hd.facK, hd.N, hd.nfp]
theorem chkTC_congr : chkTC I₁ d₁ j₁ = chkTC I₂ d₂ j₂ := by
  funext c k
  unfold chkTC chkC chkS chkS0 chkT chkZ
  rw [thB_congr hd h, zeB_congr hd h, hd.gridT, hd.gridZ, hd.wt, hd.N, hd.nfp, hd.chkIdx]
theorem chkTS_congr : chkTS I₁ d₁ j₁ = chkTS I₂ d₂ j₂ := by
  funext c k
  unfold chkTS chkC chkS chkS0 chkT chkZ
  rw [thB_congr hd h, zeB_congr hd h, hd.gridT, hd.gridZ, hd.wt, hd.N, hd.nfp, hd.chkIdx]
theorem chkV_congr : chkV I₁ d₁ j₁ = chkV I₂ d₂ j₂ := by
  funext c
  unfold chkV
  rw [bP_congr hd h, hd.gridT, hd.gridZ, hd.chkIdx]
end

/-- Column of the outputs. -/
theorem outF_congr {d₁ d₂ : Dims} {I₁ I₂ : Inputs α} (hd : DimAgree d₁ d₂) {b₁ b₂ : Nat}
    (h : ValAgree d₁ I₁ I₂ (surf I₁ b₁) (surf I₂ b₂)) (hb₁ : b₁ < d₁.nsb) (hb₂ : b₂ < d₂.nsb) (k : Nat) :
    (outF I₁ d₁ d₁.nsb).bc k b₁ = (outF I₂ d₂ d₂.nsb).bc k b₂ ∧
    (outF I₁ d₁ d₁.nsb).rc k b₁ = (outF I₂ d₂ d₂.nsb).rc k b₂ ∧
    (outF I₁ d₁ d₁.nsb).zs k b₁ = (outF I₂ d₂ d₂.nsb).zs k b₂ ∧
    (outF I₁ d₁ d₁.nsb).ns k b₁ = (outF I₂ d₂ d₂.nsb).ns k b₂ ∧
    (outF I₁ d₁ d₁.nsb).gc k b₁ = (outF I₂ d₂ d₂.nsb).gc k b₂ ∧
    (outF I₁ d₁ d₁.nsb).bs k b₁ = (outF I₂ d₂ d₂.nsb).bs k b₂ ∧
    (outF I₁ d₁ d₁.nsb).rs k b₁ = (outF I₂ d₂ d₂.nsb).rs k b₂ ∧
    (outF I₁ d₁ d₁.nsb).zc k b₁ = (outF I₂ d₂ d₂.nsb).zc k b₂ ∧
    (outF I₁ d₁ d₁.nsb).nc k b₁ = (outF I₂ d₂ d₂.nsb).nc k b₂ ∧
    (outF I₁ d₁ d₁.nsb).gs k b₁ = (outF I₂ d₂ d₂.nsb).gs k b₂ := by
  have e : ∀ {T₁ T₂ : Nat → Nat → α} {v₁ v₂ : α → α → α}, T₁ = T₂ → v₁ = v₂ →
      coefF d₁ T₁ v₁ (ofInt 0) k = coefF d₂ T₂ v₂ (ofInt 0) k := by
    rintro T₁ _ v₁ _ rfl rfl
    unfold coefF
    rw [hd.np, hd.gridT, hd.gridZ]
  unfold outF
  simp only [hb₁, hb₂, if_true]
  exact ⟨e (tC_congr hd h) (bP_congr hd h), e (tC_congr hd h) (rP_congr hd h),
    e (tS_congr hd h) (zP_congr hd h), e (tS_congr hd h) (nuV_congr hd h),
    e (tC_congr hd h) (jacB_congr hd h), e (tS_congr hd h) (bP_congr hd h),
    e (tS_congr hd h) (rP_congr hd h), e (tC_congr hd h) (zP_congr hd h),
    e (tC_congr hd h) (nuV_congr hd h), e (tS_congr hd h) (jacB_congr hd h)⟩

/-- The report of a surface. -/
theorem runReport_congr {d₁ d₂ : Dims} {I₁ I₂ : Inputs α} (hd : DimAgree d₁ d₂) {b₁ b₂ : Nat}
    (h : ValAgree d₁ I₁ I₂ (surf I₁ b₁) (surf I₂ b₂)) (hb₁ : b₁ < d₁.nsb) (hb₂ : b₂ < d₂.nsb) :
    (runReport I₁ d₁ b₁).vmec = (runReport I₂ d₂ b₂).vmec ∧
    (runReport I₁ d₁ b₁).boozer = (runReport I₂ d₂ b₂).boozer ∧
    (runReport I₁ d₁ b₁).err = (runReport I₂ d₂ b₂).err := by
  have e : ∀ c, chkB I₁ d₁ (surf I₁ b₁) b₁ (outF I₁ d₁ d₁.nsb) c d₁.nmodes =
      chkB I₂ d₂ (surf I₂ b₂) b₂ (outF I₂ d₂ d₂.nsb) c d₂.nmodes := by
    intro c
    unfold chkB
    rw [chkTC_congr hd h, chkTS_congr hd h, hd.nmodes, hd.asym]
    refine acc2_congr' (fun k _ => ?_) (fun _ k _ => ?_)
    · rw [(outF_congr hd h hb₁ hb₂ k).1]
    · rw [(outF_congr hd h hb₁ hb₂ k).2.2.2.2.2.1]
  unfold runReport reportOf
  simp only [e, chkV_congr hd h, and_self]

end Booz
