import Verif.Lemmas.StableLoad
import Verif.Props.RunRounding
import Verif.Props.Exact

/-!
# C71: rounding errors of loading VMEC data, and of loading followed by a run
-/

namespace Booz
open Spec

theorem loaded_near {ns : ℤ} {A₀ : VmecArgs ℝ} {I₀ : Inputs ℝ} {z : Sizes} {K : ℝ} (hK : 0 ≤ K)
    (C₀ : Consistent ns A₀ I₀ z) (L₀ : Loadable ns A₀ I₀ z) :
    ∃ C u₀, 0 ≤ C ∧ 0 < u₀ ∧ ∀ M : MachL A₀ ns z K, M.u ≤ u₀ → ∀ I : Inputs M.α, SameModes I I₀ →
      ∀ d : Dims, d.asym = z.asym → (d.ns : ℤ) = ns - 1 → (d.mnmax : ℤ) = z.mnmax → (d.mnq : ℤ) = z.mnmax_nyq →
      InputsNear M.fin M.val d (C * M.u) (loadedInp ns M.A I z) (loadedInp ns A₀ I₀ z) := by
  have hns := C₀.ns_ge
  have hn : ((ns - 1).toNat : ℤ) = ns - 1 := by omega
  have h3 : ∀ j < z.mnmax.toNat, I₀.xm.val 0 j = 1 → 3 ≤ ns := fun j hj => L₀.axis j (by
    have := C₀.modes.xm_len
    omega)
  have iota : ∀ j < (ns - 1).toNat, Stable (fun M : MachL A₀ ns z K => M.A.iotas.val (ofInt 0) (j + 1))
      (A₀.iotas.val (ofInt 0) (j + 1)) := by
    intro j hj
    refine Stable.of_near hK fun M => ?_
    obtain ⟨x, y, h1, h2, h3⟩ := M.near.iotas (j + 1) (by omega)
    rw [Vec.val_of_rdN _ h1, Vec.val_of_rdN _ h2]
    exact h3
  obtain ⟨C, u₀, c, p, H⟩ := (Linear.and
    (Stable.vec (π := MachL.toMachine (B := A₀) (ns := ns) (z := z) (K := K)) (n := (ns - 1).toNat)
      fun k _ => Stable.sinV hns k) <|
    Linear.and (Stable.vec iota) <|
    Linear.and (Stable.interpMat hns h3 hn (Stable.of_mat hK fun M => M.near.rmnc)) <|
    Linear.and (Stable.interpMat hns h3 hn (Stable.of_mat hK fun M => M.near.zmns)) <|
    Linear.and (Stable.shiftMat hn (Stable.of_mat hK fun M => M.near.lmns)) <|
    Linear.and (Stable.shiftMat hn (Stable.of_mat hK fun M => M.near.bmnc)) <|
    Linear.and (Stable.shiftMat hn (Stable.of_mat hK fun M => M.near.bsubumnc)) <|
    Linear.and (Stable.shiftMat hn (Stable.of_mat hK fun M => M.near.bsubvmnc)) <|
    Linear.and (Linear.imp fun ha : z.asym = true =>
      Stable.interpMat hns h3 hn (Stable.of_mat hK fun M => M.near.rmns ha)) <|
    Linear.and (Linear.imp fun ha : z.asym = true =>
      Stable.interpMat hns h3 hn (Stable.of_mat hK fun M => M.near.zmnc ha)) <|
    Linear.and (Linear.imp fun ha : z.asym = true =>
      Stable.shiftMat hn (Stable.of_mat hK fun M => M.near.lmnc ha)) <|
    Linear.and (Linear.imp fun ha : z.asym = true =>
      Stable.shiftMat hn (Stable.of_mat hK fun M => M.near.bmns ha)) <|
    Linear.and (Linear.imp fun ha : z.asym = true =>
      Stable.shiftMat hn (Stable.of_mat hK fun M => M.near.bsubumns ha))
    (Linear.imp fun ha : z.asym = true =>
      Stable.shiftMat hn (Stable.of_mat hK fun M => M.near.bsubvmns ha))).1
  refine ⟨C, u₀, c, p, fun M hM I hI d da dn dm dq => ?_⟩
  obtain ⟨h1, h2, g1, g2, g3, g4, g5, g6, a1, a2, a3, a4, a5, a6⟩ := H M hM
  have e1 : d.ns = (ns - 1).toNat := by omega
  have e2 : d.mnmax = z.mnmax.toNat := by omega
  have e3 : d.mnq = z.mnmax_nyq.toNat := by omega
  constructor
  case xm => exact hI.xm
  case xn => exact hI.xn
  case xm_nyq => exact hI.xm_nyq
  case xn_nyq => exact hI.xn_nyq
  case surfs => rfl
  case s_in => rw [e1]; exact h1
  case iota => rw [e1]; exact h2
  case rmnc => rw [e1, e2]; unfold loadedInp; rw [hI.xm]; exact g1
  case zmns => rw [e1, e2]; unfold loadedInp; rw [hI.xm]; exact g2
  case lmns => rw [e1, e2]; exact g3
  case bmnc => rw [e1, e3]; exact g4
  case bsubumnc => rw [e1, e3]; exact g5
  case bsubvmnc => rw [e1, e3]; exact g6
  case rmns =>
    intro ha
    rw [da] at ha
    rw [e1, e2]; unfold loadedInp; simp only [ha, if_true]; rw [hI.xm]; exact a1 ha
  case zmnc =>
    intro ha
    rw [da] at ha
    rw [e1, e2]; unfold loadedInp; simp only [ha, if_true]; rw [hI.xm]; exact a2 ha
  case lmnc =>
    intro ha
    rw [da] at ha
    rw [e1, e2]; unfold loadedInp; simp only [ha, if_true]; exact a3 ha
  case bmns =>
    intro ha
    rw [da] at ha
    rw [e1, e3]; unfold loadedInp; simp only [ha, if_true]; exact a4 ha
  case bsubumns =>
    intro ha
    rw [da] at ha
    rw [e1, e3]; unfold loadedInp; simp only [ha, if_true]; exact a5 ha
  case bsubvmns =>
    intro ha
    rw [da] at ha
    rw [e1, e3]; unfold loadedInp; simp only [ha, if_true]; exact a6 ha

/-- **C71.**  Fix real VMEC data that `init_from_vmec` accepts.  There are a constant `C` and a precision `u₀ > 0`
such that every machine of precision `u ≤ u₀` that loads these data rounded to within `K u` ends up with
inputs within `C u` of the exactly interpolated ones. -/
theorem C71_load {ns : ℤ} {A₀ : VmecArgs ℝ} {s₀ s₀' : St ℝ} {z : Sizes} (hg : Given A₀ s₀.inp z)
    (h : initFromVmec ns A₀ s₀ = .ok () s₀') {K : ℝ} (hK : 0 ≤ K) :
    ∃ C u₀, 0 ≤ C ∧ 0 < u₀ ∧
      ∀ (α : Type) [Arith α] (fin : α → Prop) (val : α → ℝ) (u : ℝ), Precision α fin val u → u ≤ u₀ →
      ∀ (A : VmecArgs α) (s s' : St α), Given A s.inp z → SameModes s.inp s₀.inp →
        ArgsNear fin val ns z (K * u) A A₀ → initFromVmec ns A s = .ok () s' →
        ∀ d : Dims, d.asym = z.asym → (d.ns : ℤ) = ns - 1 → (d.mnmax : ℤ) = z.mnmax → (d.mnq : ℤ) = z.mnmax_nyq →
          InputsNear fin val d (C * u) s'.inp s₀'.inp := by
  obtain ⟨_, _, C₀, L₀⟩ := vmec_inv hg h
  obtain ⟨C, u₀, c, p, H⟩ := loaded_near (I₀ := (withNs s₀ ns).inp) hK (consistent_withNs.mpr C₀)
    (loadable_withNs.mpr L₀)
  refine ⟨C, u₀, c, p, fun α _ fin val u hu hle A s s' hg' hm near h' d da dn dm dq => ?_⟩
  rw [vmec_result hg h, vmec_result hg' h']
  exact H ⟨⟨α, inferInstance, fin, val, u, hu⟩, A, near⟩ hle (withNs s ns).inp
    ⟨hm.xm, hm.xn, hm.xm_nyq, hm.xn_nyq, hm.mpol_nyq⟩ d da dn dm dq

/-- What the user may choose between loading and running: surfaces, resolution and verbosity. -/
def Spec.settings {α : Type} (S : Vec ℤ) (M N v : ℤ) (s : St α) : St α :=
  { s with inp := { s.inp with compute_surfs := S, mboz := M, nboz := N, verbose := v } }

theorem ready_loaded {ns : ℤ} {α : Type} [Arith α] {A : VmecArgs α} {A₀ : VmecArgs ℝ} {s s' : St α} {s₀ s₀' : St ℝ}
    {z : Sizes} (hg₀ : Given A₀ s₀.inp z) (h₀ : initFromVmec ns A₀ s₀ = .ok () s₀') (hg : Given A s.inp z)
    (h : initFromVmec ns A s = .ok () s') (hm : SameModes s.inp s₀.inp) {S : Vec ℤ} {M N v : ℤ} {d : Dims}
    (hr : RunReady (settings S M N v s₀').inp d) :
    RunReady (settings S M N v s').inp d ∧
      d.asym = z.asym ∧ (d.ns : ℤ) = ns - 1 ∧ (d.mnmax : ℤ) = z.mnmax ∧ (d.mnq : ℤ) = z.mnmax_nyq := by
  obtain ⟨_, _, C₀, _⟩ := vmec_inv hg₀ h₀
  obtain ⟨_, _, C, _⟩ := vmec_inv hg h
  have hns := C.ns_ge
  rw [vmec_result hg₀ h₀] at hr
  rw [vmec_result hg h]
  have z₀ := hg₀.sized
  have z₁ := hg.sized
  have ea : d.asym = z.asym := Option.some_injective _ (hr.asym.symm.trans z₀.asym)
  have en : (d.ns : ℤ) = ns - 1 := (Option.some_injective _ hr.ns_in).symm
  have em : (d.mnmax : ℤ) = z.mnmax := Option.some_injective _ (hr.mnmax.symm.trans z₀.mnmax)
  have eq : (d.mnq : ℤ) = z.mnmax_nyq := Option.some_injective _ (hr.mnmax_nyq.symm.trans z₀.mnmax_nyq)
  have e1 : (ns - 1).toNat = d.ns := by omega
  have e2 : z.mnmax.toNat = d.mnmax := by omega
  have e3 : z.mnmax_nyq.toNat = d.mnq := by omega
  refine ⟨?_, ea, en, em, eq⟩
  have xm : s.inp.xm = s₀.inp.xm := hm.xm
  have xn : s.inp.xn = s₀.inp.xn := hm.xn
  have xmq : s.inp.xm_nyq = s₀.inp.xm_nyq := hm.xm_nyq
  have xnq : s.inp.xn_nyq = s₀.inp.xn_nyq := hm.xn_nyq
  have tab : ∀ {r c : ℕ} (f : ℕ → ℕ → α), r = d.mnmax → c = d.ns → (Mat.tab r c f).Full d.mnmax d.ns := by
    rintro r c f rfl rfl
    exact Mat.full_tab _ _ _
  have tabq : ∀ {r c : ℕ} (f : ℕ → ℕ → α), r = d.mnq → c = d.ns → (Mat.tab r c f).Full d.mnq d.ns := by
    rintro r c f rfl rfl
    exact Mat.full_tab _ _ _
  have vtab : ∀ {r : ℕ} (f : ℕ → α), r = d.ns → (Vec.tab r f).Full d.ns := by
    rintro r f rfl
    exact Vec.full_tab _ _
  exact
    { asym := z₁.asym.trans (z₀.asym.symm.trans hr.asym)
      nfp := z₁.nfp.trans (z₀.nfp.symm.trans hr.nfp)
      nfp_pos := hr.nfp_pos
      mpol := z₁.mpol.trans (z₀.mpol.symm.trans hr.mpol)
      mpol_ge := hr.mpol_ge
      ntor := z₁.ntor.trans (z₀.ntor.symm.trans hr.ntor)
      mnmax := z₁.mnmax.trans (z₀.mnmax.symm.trans hr.mnmax)
      mpol_nyq := hm.mpol_nyq.trans hr.mpol_nyq
      mpol_nyq_ge := hr.mpol_nyq_ge
      ntor_nyq := z₁.ntor_nyq.trans (z₀.ntor_nyq.symm.trans hr.ntor_nyq)
      mnmax_nyq := z₁.mnmax_nyq.trans (z₀.mnmax_nyq.symm.trans hr.mnmax_nyq)
      mnmax_nyq_ge := hr.mnmax_nyq_ge
      ns_in := hr.ns_in
      mboz := hr.mboz
      mboz_ge := hr.mboz_ge
      nboz := hr.nboz
      xm := by have := hr.xm; exact xm ▸ this
      xm_range := by have := hr.xm_range; exact xm ▸ this
      xn := by have := hr.xn; exact xn ▸ this
      xn_range := by have := hr.xn_range; exact xn ▸ this
      xn_int := by have := hr.xn_int; exact xn ▸ this
      xm_nyq := by have := hr.xm_nyq; exact xmq ▸ this
      xm_nyq_range := by have := hr.xm_nyq_range; exact xmq ▸ this
      xn_nyq := by have := hr.xn_nyq; exact xnq ▸ this
      xn_nyq_range := by have := hr.xn_nyq_range; exact xnq ▸ this
      xn_nyq_int := by have := hr.xn_nyq_int; exact xnq ▸ this
      s_in := vtab _ e1
      iota := vtab _ e1
      rmnc := tab _ e2 e1
      zmns := tab _ e2 e1
      lmns := tab _ e2 e1
      bmnc := tabq _ e3 e1
      bsubumnc := tabq _ e3 e1
      bsubvmnc := tabq _ e3 e1
      rmns := fun ha => by
        show (if z.asym then _ else _ : Mat α).Full _ _
        rw [if_pos (ea ▸ ha)]; exact tab _ e2 e1
      zmnc := fun ha => by
        show (if z.asym then _ else _ : Mat α).Full _ _
        rw [if_pos (ea ▸ ha)]; exact tab _ e2 e1
      lmnc := fun ha => by
        show (if z.asym then _ else _ : Mat α).Full _ _
        rw [if_pos (ea ▸ ha)]; exact tab _ e2 e1
      bmns := fun ha => by
        show (if z.asym then _ else _ : Mat α).Full _ _
        rw [if_pos (ea ▸ ha)]; exact tabq _ e3 e1
      bsubumns := fun ha => by
        show (if z.asym then _ else _ : Mat α).Full _ _
        rw [if_pos (ea ▸ ha)]; exact tabq _ e3 e1
      bsubvmns := fun ha => by
        show (if z.asym then _ else _ : Mat α).Full _ _
        rw [if_pos (ea ▸ ha)]; exact tabq _ e3 e1
      surfs := hr.surfs
      surfs_range := hr.surfs_range
      fit_ntor := hr.fit_ntor
      fit_mq := hr.fit_mq
      fit_nq := hr.fit_nq
      fit_mpol := hr.fit_mpol
      fit_theta := hr.fit_theta
      fit_zeta := hr.fit_zeta
      fit_pts := hr.fit_pts
      fit_nfp := hr.fit_nfp }

/-- **C71, to the end.**  Loading VMEC data, choosing surfaces and resolution, and running: every machine of
precision `u ≤ u₀` that is given the data rounded to within `K u` returns outputs that are finite and within
`C u` of those of the same calls in exact arithmetic. -/
theorem C71_load_run {ns : ℤ} {A₀ : VmecArgs ℝ} {s₀ s₀' : St ℝ} {z : Sizes} (hg : Given A₀ s₀.inp z)
    (h : initFromVmec ns A₀ s₀ = .ok () s₀') {S : Vec ℤ} {M N v : ℤ} {d : Dims}
    (hr : RunReady (settings S M N v s₀').inp d) (hp : FieldPeriodic s₀'.inp d.nfp) (ho : OriginOnce s₀'.inp)
    (hreg : ∀ b < d.nsb, (surface s₀'.inp d.asym (S.val 0 b).toNat).Regular) {K : ℝ} (hK : 0 ≤ K) :
    ∃ C u₀, 0 < u₀ ∧
      ∀ (α : Type) [Arith α] (fin : α → Prop) (val : α → ℝ) (u : ℝ), Precision α fin val u → u ≤ u₀ →
      ∀ (A : VmecArgs α) (s s' : St α), Given A s.inp z → SameModes s.inp s₀.inp →
        ArgsNear fin val ns z (K * u) A A₀ → initFromVmec ns A s = .ok () s' →
        ∃ t r t₀ r₀, run false (settings S M N v s') = .ok (t, r) ∧ run false (settings S M N v s₀') = .ok (t₀, r₀) ∧
          OutputsNear fin val d (C * u) t.out t₀.out := by
  obtain ⟨C, u₀, c, p, H⟩ := C71_load hg h hK
  obtain ⟨D, v₀, q, G⟩ := C69_rounding (s₀ := settings S M N v s₀') hr hp ho hreg c
  refine ⟨D, min u₀ v₀, lt_min p q, fun α _ fin val u hu hle A s s' hg' hm near h' => ?_⟩
  obtain ⟨r1, r2, r3, r4, r5⟩ := ready_loaded hg h hg' h' hm hr
  have := H α fin val u hu (hle.trans (min_le_left _ _)) A s s' hg' hm near h' d r2 r3 r4 r5
  exact G α fin val u hu (hle.trans (min_le_right _ _)) (settings S M N v s') r1
    { this with surfs := rfl }

/-! Non-vacuity: the example of the loader, in floating point with more and more bits. -/

theorem Ex.vec_near (p n : ℕ) (f : ℕ → ℤ) (hf : ∀ i < n, |f i| ≤ 99) :
    VecNear (fun _ => True) Ex.Flp.val n (100 * (4 / 2 ^ p)) (Vec.tab n fun i => (ofInt (f i) : Ex.Flp p))
      (Vec.tab n fun i => (ofInt (f i) : ℝ)) := by
  intro i hi
  refine ⟨_, _, Vec.rdN_tab hi, Vec.rdN_tab hi, trivial, (Ex.rnd_error' p (f i)).trans ?_⟩
  have h1 : |((f i : ℤ) : ℝ)| ≤ 99 := by exact_mod_cast hf i hi
  have h0 : (0 : ℝ) < 4 / 2 ^ p := by positivity
  nlinarith

theorem Ex.mat_near (p r c : ℕ) (f : ℕ → ℕ → ℤ) (hf : ∀ i < r, ∀ j < c, |f i j| ≤ 99) :
    MatNear (fun _ => True) Ex.Flp.val r c (100 * (4 / 2 ^ p)) (Mat.tab r c fun i j => (ofInt (f i j) : Ex.Flp p))
      (Mat.tab r c fun i j => (ofInt (f i j) : ℝ)) := by
  intro i hi j hj
  refine ⟨_, _, Mat.rdN_tab hi hj, Mat.rdN_tab hi hj, trivial, (Ex.rnd_error' p (f i j)).trans ?_⟩
  have h1 : |((f i j : ℤ) : ℝ)| ≤ 99 := by exact_mod_cast hf i hi j hj
  have h0 : (0 : ℝ) < 4 / 2 ^ p := by positivity
  nlinarith

theorem Ex.args_near (asym : Bool) (p : ℕ) :
    ArgsNear (fun _ => True) Ex.Flp.val 4 (Ex.sizes asym) (100 * (4 / 2 ^ p)) (Ex.vmec (α := Ex.Flp p))
      (Ex.vmec (α := ℝ)) := by
  have e1 : (Ex.sizes asym).mnmax.toNat = 3 := rfl
  have e2 : (Ex.sizes asym).mnmax_nyq.toNat = 4 := rfl
  have e3 : (4 : ℤ).toNat = 4 := rfl
  have h_iotas := Ex.vec_near p 4 (fun j => (j : ℤ) + 1) (by intro j hj; rw [abs_le]; omega)
  have h_rmnc := Ex.mat_near p 3 4 (fun k j => 10 - 4 * (k : ℤ) + j)
    (by intro k hk j hj; rw [abs_le]; omega)
  have h_zmns := Ex.mat_near p 3 4 (fun k j => (k : ℤ) + 2 * j)
    (by intro k hk j hj; rw [abs_le]; omega)
  have h_lmns := Ex.mat_near p 3 4 (fun k j => (k : ℤ) + 4 * j)
    (by intro k hk j hj; rw [abs_le]; omega)
  have h_bmnc := Ex.mat_near p 4 4 (fun k j => if k = 0 then 7 + (j : ℤ) else 1)
    (by intro k hk j hj; rw [abs_le]; split_ifs <;> omega)
  have h_bsubumnc := Ex.mat_near p 4 4 (fun k j => (k : ℤ) + 6 * j)
    (by intro k hk j hj; rw [abs_le]; omega)
  have h_bsubvmnc := Ex.mat_near p 4 4 (fun k j => (k : ℤ) + 8 * j)
    (by intro k hk j hj; rw [abs_le]; omega)
  have h_rmns := Ex.mat_near p 3 4 (fun k j => (k : ℤ) + j)
    (by intro k hk j hj; rw [abs_le]; omega)
  have h_zmnc := Ex.mat_near p 3 4 (fun k j => 2 * (k : ℤ) + j)
    (by intro k hk j hj; rw [abs_le]; omega)
  have h_lmnc := Ex.mat_near p 3 4 (fun k j => (k : ℤ) + 3 * j)
    (by intro k hk j hj; rw [abs_le]; omega)
  have h_bmns := Ex.mat_near p 4 4 (fun k j => (k : ℤ) + 5 * j)
    (by intro k hk j hj; rw [abs_le]; omega)
  have h_bsubumns := Ex.mat_near p 4 4 (fun k j => (k : ℤ) + 7 * j)
    (by intro k hk j hj; rw [abs_le]; omega)
  have h_bsubvmns := Ex.mat_near p 4 4 (fun k j => (k : ℤ) + 9 * j)
    (by intro k hk j hj; rw [abs_le]; omega)
  constructor <;> unfold Ex.vmec <;> simp only [e1, e2, e3]
  · exact h_iotas
  · exact h_rmnc
  · exact h_zmns
  · exact h_lmns
  · exact h_bmnc
  · exact h_bsubumnc
  · exact h_bsubvmnc
  · exact fun _ => h_rmns
  · exact fun _ => h_zmnc
  · exact fun _ => h_lmnc
  · exact fun _ => h_bmns
  · exact fun _ => h_bsubumns
  · exact fun _ => h_bsubvmns

theorem Ex.bits {u₀ : ℝ} (h : 0 < u₀) : ∃ p₀ : ℕ, ∀ p ≥ p₀, (4 : ℝ) / 2 ^ p ≤ u₀ := by
  obtain ⟨p₀, hp₀⟩ := exists_pow_lt_of_lt_one (show 0 < u₀ / 4 by linarith) (show (1 : ℝ) / 2 < 1 by norm_num)
  refine ⟨p₀, fun p hp => ?_⟩
  have h1 : ((1 : ℝ) / 2) ^ p ≤ (1 / 2) ^ p₀ := pow_le_pow_of_le_one (by norm_num) (by norm_num) hp
  have h2 : (4 : ℝ) / 2 ^ p = 4 * (1 / 2) ^ p := by rw [div_pow, one_pow]; ring
  rw [h2]
  linarith

theorem Ex.sameModes (α : Type) [Arith α] (asym : Bool) :
    SameModes (Ex.vst (α := α) asym).inp (Ex.vst (α := ℝ) asym).inp := ⟨rfl, rfl, rfl, rfl, rfl⟩

/-- The loaded radial grid and harmonics of the example tend to the exact ones. -/
example (asym : Bool) : ∃ C p₀, ∀ p ≥ p₀, ∃ s' s₀',
    initFromVmec 4 (Ex.vmec (α := Ex.Flp p)) (Ex.vst asym) = .ok () s' ∧
      initFromVmec 4 (Ex.vmec (α := ℝ)) (Ex.vst asym) = .ok () s₀' ∧
      InputsNear (fun _ => True) Ex.Flp.val { Ex.dims asym with ns := 3 } (C * (4 / 2 ^ p)) s'.inp s₀'.inp := by
  obtain ⟨s₀', h₀⟩ := Ex.loads (α := ℝ) asym
  obtain ⟨C, u₀, _, h0, H⟩ := C71_load (Ex.given (α := ℝ) asym) h₀ (K := 100) (by norm_num)
  obtain ⟨p₀, hp₀⟩ := Ex.bits h0
  refine ⟨C, p₀, fun p hp => ?_⟩
  obtain ⟨s', h'⟩ := Ex.loads (α := Ex.Flp p) asym
  exact ⟨s', s₀', h', h₀, H (Ex.Flp p) _ Ex.Flp.val (4 / 2 ^ p) (Ex.flp_precision p) (hp₀ p hp) Ex.vmec (Ex.vst asym) s'
    (Ex.given asym) (Ex.sameModes _ asym) (Ex.args_near asym p) h' _ rfl rfl rfl rfl⟩

/-- Sizes of a run of the loaded example on two surfaces. -/
def Ex.ldims : Dims := { Ex.dims false with ns := 3 }

theorem Ex.loaded_ready {s' : St ℝ} (h : initFromVmec 4 (Ex.vmec (α := ℝ)) (Ex.vst false) = .ok () s') :
    RunReady (settings (Ex.vec [2, 0]) 2 1 0 s').inp Ex.ldims := by
  obtain ⟨-, hc, C, L⟩ := vmec_inv (Ex.given false) h
  have e := vmec_result (Ex.given false) h
  have C' := (consistent_withNs (s := Ex.vst (α := ℝ) false) (k := 4)).mpr C
  have L' := (loadable_withNs (s := Ex.vst (α := ℝ) false) (k := 4)).mpr L
  have hp := loaded_prepared (I := (withNs (Ex.vst (α := ℝ) false) 4).inp) (mq := 2)
    (given_withNs (Ex.given (α := ℝ) false) 4) hc C' L' rfl (Ex.nyqInt (α := ℝ) false) 0 2 1
    (v := Ex.vec [2, 0]) (nsb := 2) (Ex.vec_full [2, 0] rfl) (by decide)
  have w := Ex.within (α := ℝ) false
  have hr := (loaded_inRange (I := (withNs (Ex.vst (α := ℝ) false) 4).inp) (mq := 2) hc C' L' 0 2 1
    (Ex.vec [2, 0]) 2).mpr ⟨⟨w.1, w.2, w.3, w.4, w.5, w.6, w.7, w.8⟩, by decide, by
    intro k hk
    match k, hk with
    | 0, _ => show (0 : Int) ≤ 2 ∧ (2 : Int) < 4 - 1; decide
    | 1, _ => show (0 : Int) ≤ 0 ∧ (0 : Int) < 4 - 1; decide⟩
  subst e
  exact ⟨prepared_shape hp hr (by show (0 : Int) ≤ 1; decide), by decide, by decide, by decide, by decide⟩

theorem Ex.shift_val (f : ℕ → ℕ → ℤ) {k js : ℕ} (hk : k < 4) (hj : js < 3) :
    (shiftMat 4 3 (Mat.tab 4 4 fun k j => (ofInt (f k j) : ℝ))).val 0 k js = (f k (js + 1) : ℝ) := by
  unfold shiftMat ev
  rw [Mat.val_tab hk hj, Mat.val_tab hk (by omega), real_ofInt]

theorem Ex.regular_of {I : Inputs ℝ}
    (e1 : I.bsubvmnc = shiftMat 4 3 (Mat.tab 4 4 fun k j => (ofInt ((k : ℤ) + 8 * j) : ℝ)))
    (e2 : I.bsubumnc = shiftMat 4 3 (Mat.tab 4 4 fun k j => (ofInt ((k : ℤ) + 6 * j) : ℝ)))
    (e3 : I.bmnc = shiftMat 4 3 (Mat.tab 4 4 fun k j => (ofInt (if k = 0 then 7 + (j : ℤ) else 1) : ℝ)))
    (e4 : I.iota = Vec.tab 3 fun j => (Vec.tab 4 fun j => (ofInt ((j : ℤ) + 1) : ℝ)).val (ofInt 0) (j + 1))
    (e5 : I.xm_nyq = Ex.vec [0, 0, 1, 2]) (e6 : I.xn_nyq = Ex.vec [0, 2, 0, 2]) {js : ℕ} (hj : js < 3) :
    (surface I false js).Regular := by
  constructor
  · show entry I.bsubvmnc 0 js + I.iota.val 0 js * entry I.bsubumnc 0 js ≠ 0
    unfold entry
    rw [e1, e2, e4, Ex.shift_val _ (by omega) hj, Ex.shift_val _ (by omega) hj, Vec.val_tab hj,
      Vec.val_tab (by omega), real_ofInt]
    push_cast
    positivity
  · intro θ ζ
    show series I.xm_nyq.size (I.xm_nyq.val 0) (I.xn_nyq.val 0) (fun k => entry I.bmnc k js)
      (fun k => onlyIf false (entry I.bmns k js)) θ ζ ≠ 0
    have hsz : Array.size (Ex.vec [(0 : ℤ), 0, 1, 2]) = 4 := rfl
    have hm : (Ex.vec [(0 : ℤ), 0, 1, 2]).val 0 0 = 0 := rfl
    have hn : (Ex.vec [(0 : ℤ), 2, 0, 2]).val 0 0 = 0 := rfl
    unfold series entry onlyIf
    rw [e3, e5, e6, hsz, Finset.sum_range_succ, Finset.sum_range_succ, Finset.sum_range_succ, Finset.sum_range_one,
      hm, hn]
    beta_reduce
    rw [Ex.shift_val _ (show 0 < 4 by omega) hj, Ex.shift_val _ (show 1 < 4 by omega) hj,
      Ex.shift_val _ (show 2 < 4 by omega) hj, Ex.shift_val _ (show 3 < 4 by omega) hj]
    have c1 := Real.neg_one_le_cos
      ((((Ex.vec [(0 : ℤ), 0, 1, 2]).val 0 1 : ℤ) : ℝ) * θ - (((Ex.vec [(0 : ℤ), 2, 0, 2]).val 0 1 : ℤ) : ℝ) * ζ)
    have c2 := Real.neg_one_le_cos
      ((((Ex.vec [(0 : ℤ), 0, 1, 2]).val 0 2 : ℤ) : ℝ) * θ - (((Ex.vec [(0 : ℤ), 2, 0, 2]).val 0 2 : ℤ) : ℝ) * ζ)
    have c3 := Real.neg_one_le_cos
      ((((Ex.vec [(0 : ℤ), 0, 1, 2]).val 0 3 : ℤ) : ℝ) * θ - (((Ex.vec [(0 : ℤ), 2, 0, 2]).val 0 3 : ℤ) : ℝ) * ζ)
    have hj' : (0 : ℝ) ≤ js := by positivity
    simp only [one_ne_zero, OfNat.ofNat_ne_zero, if_false, if_true, Bool.false_eq_true, zero_mul, add_zero, Int.cast_zero,
      sub_zero, Real.cos_zero, mul_one, Int.cast_one, one_mul]
    push_cast
    intro h0
    linarith

theorem Ex.loaded_regular {s' : St ℝ} (h : initFromVmec 4 (Ex.vmec (α := ℝ)) (Ex.vst false) = .ok () s') {js : ℕ}
    (hj : js < 3) : (surface s'.inp false js).Regular := by
  have e := vmec_result (Ex.given false) h
  subst e
  exact Ex.regular_of rfl rfl rfl rfl rfl rfl hj

/-- Loading and running the example: as the number of bits grows, the outputs tend to the exact ones. -/
example : ∃ C p₀, ∀ p ≥ p₀, ∃ s' s₀' t r t₀ r₀,
    initFromVmec 4 (Ex.vmec (α := Ex.Flp p)) (Ex.vst false) = .ok () s' ∧
      initFromVmec 4 (Ex.vmec (α := ℝ)) (Ex.vst false) = .ok () s₀' ∧
      run false (settings (Ex.vec [2, 0]) 2 1 0 s') = .ok (t, r) ∧
      run false (settings (Ex.vec [2, 0]) 2 1 0 s₀') = .ok (t₀, r₀) ∧
      OutputsNear (fun _ => True) Ex.Flp.val Ex.ldims (C * (4 / 2 ^ p)) t.out t₀.out := by
  obtain ⟨s₀', h₀⟩ := Ex.loads (α := ℝ) false
  have e := vmec_result (Ex.given false) h₀
  have e5 : s₀'.inp.xm_nyq = Ex.vec [0, 0, 1, 2] := by subst e; rfl
  have e6 : s₀'.inp.xn_nyq = Ex.vec [0, 2, 0, 2] := by subst e; rfl
  have hs : ∀ b < 2, ((Ex.vec [(2 : ℤ), 0]).val 0 b).toNat < 3 := by decide
  have e7 : s₀'.inp.xn = Ex.vec [0, 2, 2] := by subst e; rfl
  have hp : FieldPeriodic s₀'.inp 2 := by
    unfold FieldPeriodic
    rw [e6, e7]
    decide
  have ho : OriginOnce s₀'.inp := by
    unfold OriginOnce
    rw [e5, e6]
    decide
  obtain ⟨C, u₀, h0, H⟩ := C71_load_run (Ex.given (α := ℝ) false) h₀ (d := Ex.ldims) (Ex.loaded_ready h₀) hp ho
    (fun b hb => Ex.loaded_regular h₀ (hs b hb)) (K := 100) (by norm_num)
  obtain ⟨p₀, hp₀⟩ := Ex.bits h0
  refine ⟨C, p₀, fun p hp => ?_⟩
  obtain ⟨s', h'⟩ := Ex.loads (α := Ex.Flp p) false
  obtain ⟨t, r, t₀, r₀, k1, k2, k3⟩ := H (Ex.Flp p) _ Ex.Flp.val (4 / 2 ^ p) (Ex.flp_precision p) (hp₀ p hp) Ex.vmec
    (Ex.vst false) s' (Ex.given false) (Ex.sameModes _ false) (Ex.args_near false p) h'
  exact ⟨s', s₀', t, r, t₀, r₀, h', h₀, k1, k2, k3⟩

end Booz
