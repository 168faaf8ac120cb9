import Verif.Props.Derivatives

/-!
# C114: derivatives with respect to the Boozer angles from the file
-/

namespace Booz
open Spec Finset Function

theorem Spec.RebuildsDeriv.mono {i j K : ℕ} {m n : ℕ → ℤ} {cosN sinN : ℕ → ℝ → Prop} {S : Surface} {q : ℝ → ℝ → ℝ}
    {e e' : ℝ} (h : RebuildsDeriv i j K m n cosN sinN S q e) (le : e ≤ e') : RebuildsDeriv i j K m n cosN sinN S q e' := by
  obtain ⟨f, c, s, h1, h2, h3, h4⟩ := h
  exact ⟨f, c, s, h1, h2, h3, fun t z => (h4 t z).trans le⟩

theorem Spec.MachineDerivs.mono {α : Type} {fin : α → Prop} {val : α → ℝ} {i j : ℕ} {o : Outputs α} {S : Surface} {asym : Bool}
    {K b : ℕ} {e e' : ℝ} (h : MachineDerivs fin val i j o S asym K b e) (le : e ≤ e') :
    MachineDerivs fin val i j o S asym K b e' := by
  obtain ⟨m, n, h0, h1, h2, h3, h4, h5⟩ := h
  exact ⟨m, n, h0, h1.mono le, h2.mono le, h3.mono le, h4.mono le, h5.mono le⟩

/-- Other numbers for the same places. -/
theorem Spec.RebuildsDeriv.imp {i j K : ℕ} {m n : ℕ → ℤ} {cosN sinN cosN' sinN' : ℕ → ℝ → Prop} {S : Surface}
    {q : ℝ → ℝ → ℝ} {e : ℝ} (h : RebuildsDeriv i j K m n cosN sinN S q e) (hc : ∀ k < K, ∀ x, cosN k x → cosN' k x)
    (hs : ∀ k < K, ∀ x, sinN k x → sinN' k x) : RebuildsDeriv i j K m n cosN' sinN' S q e := by
  obtain ⟨f, c, s, h1, h2, h3, h4⟩ := h
  exact ⟨f, c, s, h1, h2, fun k hk => ⟨hc k hk _ (h3 k hk).1, hs k hk _ (h3 k hk).2⟩, h4⟩

/-- The numbers with the opposite sign. -/
theorem Spec.RebuildsDeriv.neg {i j K : ℕ} {m n : ℕ → ℤ} {cosN sinN cosN' sinN' : ℕ → ℝ → Prop} {S : Surface}
    {q : ℝ → ℝ → ℝ} {e : ℝ} (h : RebuildsDeriv i j K m n cosN sinN S q e) (hc : ∀ k < K, ∀ x, cosN k x → cosN' k (-x))
    (hs : ∀ k < K, ∀ x, sinN k x → sinN' k (-x)) : RebuildsDeriv i j K m n cosN' sinN' S (fun θ ζ => -q θ ζ) e := by
  obtain ⟨f, c, s, h1, h2, h3, h4⟩ := h
  refine ⟨fun t z => -f t z, fun k => -c k, fun k => -s k, h1.neg, fun θ ζ => congrArg Neg.neg (h2 θ ζ),
    fun k hk => ⟨hc k hk _ (h3 k hk).1, hs k hk _ (h3 k hk).2⟩, fun t z => ?_⟩
  have e1 : partialDeriv i j (fun t z => -f t z) t z = -partialDeriv i j f t z := by
    unfold partialDeriv
    rw [show (fun t' => iteratedDeriv j (fun z' => -f t' z') z) = fun t' => -iteratedDeriv j (fun z' => f t' z') z from
      funext fun t' => iteratedDeriv_fun_neg j _ _, iteratedDeriv_fun_neg]
  have e2 : seriesDeriv i j K m n (fun k => -c k) (fun k => -s k) t z = -seriesDeriv i j K m n c s t z := by
    unfold seriesDeriv
    rw [← sum_neg_distrib]
    exact sum_congr rfl fun k _ => by ring
  rw [e1, e2, neg_sub_neg, abs_sub_comm]
  exact h4 t z

/-- The numbers of the outputs are in the file. -/
theorem file_derivs {α : Type} [Arith α] {fin : α → Prop} {val : α → ℝ} {out : NcFile α} {version : String} {t : St α}
    {d : Dims} {u e : ℝ} {S : Surface} {i j : ℕ}
    (hu : Precision α fin val u) (hl : Layout out version t d.nmodes d.nsb d.ns d.asym) {b : ℕ} (hb : b < d.nsb)
    (h : MachineDerivs fin val i j t.out S d.asym (numModes d.M d.N) b e) :
    FileDerivs fin val i j out S d.asym (numModes d.M d.N) b e := by
  obtain ⟨m, n, k0, kb, kr, kz, kn, kg⟩ := h
  have pos : ∀ {a : Mat α} {name : String}, HoldsMat out d.nmodes d.nsb name id a → ∀ k < d.nmodes, ∀ r,
      Stores fin val a k b r → FileNumber fin val out name (numModes d.M d.N) b k r := by
    rintro a name ⟨v, c, h1, h2, h3, -, h4⟩ k hk r ⟨x, g1, g2, g3⟩
    refine ⟨v, c, x, h1, h2, h3, ?_, g2, g3⟩
    refine (h4 b hb k hk).trans ?_
    rw [cell_of_rdN g1]
    rfl
  have neg : ∀ {a : Mat α} {name : String}, HoldsMat out d.nmodes d.nsb name (- ·) a → ∀ k < d.nmodes, ∀ r,
      Stores fin val a k b r → FileNumber fin val out name (numModes d.M d.N) b k (-r) := by
    rintro a name ⟨v, c, h1, h2, h3, -, h4⟩ k hk r ⟨x, g1, g2, g3⟩
    obtain ⟨n1, n2⟩ := hu.neg x g2
    refine ⟨v, c, -x, h1, h2, h3, ?_, n1, by rw [n2, g3]⟩
    refine (h4 b hb k hk).trans ?_
    rw [cell_of_rdN g1]
    rfl
  have posA : ∀ {a : Mat α} {name : String}, (d.asym = true → HoldsMat out d.nmodes d.nsb name id a) →
      ∀ k < d.nmodes, ∀ r, IfAsym d.asym (Stores fin val a k b) r →
      IfAsym d.asym (FileNumber fin val out name (numModes d.M d.N) b k) r := by
    intro a name h k hk r hs
    unfold IfAsym at *
    cases ha : d.asym
    · rw [ha] at hs; exact hs
    · rw [ha] at hs; exact pos (h ha) k hk r hs
  have negA : ∀ {a : Mat α} {name : String}, (d.asym = true → HoldsMat out d.nmodes d.nsb name (- ·) a) →
      ∀ k < d.nmodes, ∀ r, IfAsym d.asym (Stores fin val a k b) r →
      IfAsym d.asym (FileNumber fin val out name (numModes d.M d.N) b k) (-r) := by
    intro a name h k hk r hs
    unfold IfAsym at *
    cases ha : d.asym
    · rw [ha] at hs
      have hs : r = 0 := hs
      show -r = 0
      rw [hs, neg_zero]
    · rw [ha] at hs; exact neg (h ha) k hk r hs
  have ints : ∀ {name : String} {a : Vec ℤ} {k : ℕ} {x : ℤ}, HoldsInts out "mn_modes" name a → a.rdN k = .ok x →
      FileInt out name k x := by
    intro name a k x h hx
    rw [fileInt_iff h]
    unfold Vec.rdN at hx
    split at hx
    · rename_i y hy
      cases hx
      exact hy
    · cases hx
    · cases hx
  exact ⟨m, n, fun k hk => ⟨ints hl.ixm_b (k0 k hk).1, ints hl.ixn_b (k0 k hk).2⟩,
    kb.imp (pos hl.bmnc_b) (posA fun ha => (hl.asym_vars ha).1),
    kr.imp (pos hl.rmnc_b) (posA fun ha => (hl.asym_vars ha).2.1),
    kz.imp (posA fun ha => (hl.asym_vars ha).2.2.1) (pos hl.zmns_b),
    kn.neg (negA fun ha => (hl.asym_vars ha).2.2.2.1) (neg hl.pmns_b),
    kg.imp (pos hl.gmn_b) (posA fun ha => (hl.asym_vars ha).2.2.2.2)⟩

/-- **C114, from VMEC data.**  `C114_machine` for all selected surfaces at once, after loading. -/
theorem C114_load {ns : ℤ} {A₀ : VmecArgs ℝ} {s₀ s₀' : St ℝ} {z : Sizes} (hg : Given A₀ s₀.inp z)
    (h : initFromVmec ns A₀ s₀ = .ok () s₀') {S : Vec ℤ} {M₀ N₀ v : ℤ} {d : Dims}
    (hr : RunReady (settings S M₀ N₀ v s₀').inp d) (hp : FieldPeriodic s₀'.inp d.nfp) (ho : OriginOnce s₀'.inp)
    (hreg : ∀ b < d.nsb, (surface s₀'.inp d.asym (S.val 0 b).toNat).Regular)
    (hdet : ∀ b < d.nsb, ∀ θ ζ, (surface s₀'.inp d.asym (S.val 0 b).toNat).det θ ζ ≠ 0)
    {c : ℝ} (hc : 0 ≤ c) {ρ : ℝ} (hρ : ρ < 1) (i j p : ℕ) :
    ∃ C, 0 ≤ C ∧ ∀ M N : ℕ, 1 ≤ N → (M : ℝ) ≤ c * N → (N : ℝ) ≤ c * M →
      RunReady (settings S M N v s₀').inp { d with M := M, N := N } → ∀ K : ℝ, 0 ≤ K →
      ∃ D u₀, 0 ≤ D ∧ 0 < u₀ ∧
        ∀ (α : Type) [Arith α] (fin : α → Prop) (val : α → ℝ) (u : ℝ), Precision α fin val u → u ≤ u₀ →
        ∀ (A : VmecArgs α) (s s' : St α), Given A s.inp z → SameModes s.inp s₀.inp →
          ArgsNear fin val ns z (K * u) A A₀ → initFromVmec ns A s = .ok () s' →
          ∀ t r, run false (settings S M N v s') = .ok (t, r) →
            ∀ b < d.nsb, let T := surface s₀'.inp d.asym (S.val 0 b).toNat
              T.ResolvedBy d.nfp M N ρ →
              MachineDerivs fin val i j t.out T d.asym (numModes M N) b (C * (1 / (M : ℝ)) ^ p + D * u) := by
  have H := fun (b : ℕ) (hb : b < d.nsb) => C114_machine (s₀ := settings S M₀ N₀ v s₀') hr hp ho hreg hb (hdet b hb) hc hρ i j p
  have H' : ∀ b : ℕ, ∃ C, 0 ≤ C ∧ (b < d.nsb → ∀ M N : ℕ, 1 ≤ N → (M : ℝ) ≤ c * N → (N : ℝ) ≤ c * M →
      RunReady (settings S M N v s₀').inp { d with M := M, N := N } →
      (surface s₀'.inp d.asym (S.val 0 b).toNat).ResolvedBy d.nfp M N ρ →
      ∀ K : ℝ, 0 ≤ K → ∃ D u₀, 0 ≤ D ∧ 0 < u₀ ∧
        ∀ (α : Type) [Arith α] (fin : α → Prop) (val : α → ℝ) (u : ℝ), Precision α fin val u → u ≤ u₀ →
        ∀ s : St α, RunReady s.inp { d with M := M, N := N } →
          InputsNear fin val { d with M := M, N := N } (K * u) s.inp (settings S M N v s₀').inp →
          ∃ s' r, run false s = .ok (s', r) ∧
            MachineDerivs fin val i j s'.out (surface s₀'.inp d.asym (S.val 0 b).toNat) d.asym (numModes M N) b
              (C * (1 / (M : ℝ)) ^ p + D * u)) := by
    intro b
    by_cases hb : b < d.nsb
    · obtain ⟨C, hC, h⟩ := H b hb
      refine ⟨C, hC, fun _ M N a1 a2 a3 a4 a5 K hK => ?_⟩
      obtain ⟨D, u₀, hD, h0, g⟩ := h M N a1 a2 a3 a4 a5 K hK
      exact ⟨D, u₀, hD, h0, fun α _ fin val u hu hle s hs hn => g α fin val u hu hle s hs { hn with }⟩
    · exact ⟨0, le_rfl, fun h => absurd h hb⟩
  choose Cb hC0 H' using H'
  have hCle : ∀ b < d.nsb, Cb b ≤ ∑ b ∈ range d.nsb, Cb b := fun b hb =>
    single_le_sum (f := Cb) (fun b _ => hC0 b) (mem_range.2 hb)
  refine ⟨∑ b ∈ range d.nsb, Cb b, sum_nonneg fun b _ => hC0 b, fun M N hN hMN hNM hr' K hK => ?_⟩
  obtain ⟨E, u₀, e0, p0, L⟩ := C71_load hg h hK
  have G : ∀ b : ℕ, ∃ D v₀, 0 ≤ D ∧ 0 < v₀ ∧ (b < d.nsb →
      (surface s₀'.inp d.asym (S.val 0 b).toNat).ResolvedBy d.nfp M N ρ →
        ∀ (α : Type) [Arith α] (fin : α → Prop) (val : α → ℝ) (u : ℝ), Precision α fin val u → u ≤ v₀ →
        ∀ s : St α, RunReady s.inp { d with M := M, N := N } →
          InputsNear fin val { d with M := M, N := N } (E * u) s.inp (settings S M N v s₀').inp →
          ∃ s' r, run false s = .ok (s', r) ∧
            MachineDerivs fin val i j s'.out (surface s₀'.inp d.asym (S.val 0 b).toNat) d.asym (numModes M N) b
              (Cb b * (1 / (M : ℝ)) ^ p + D * u)) := by
    intro b
    by_cases hb : b < d.nsb ∧ (surface s₀'.inp d.asym (S.val 0 b).toNat).ResolvedBy d.nfp M N ρ
    · obtain ⟨D, v₀, hD, h0, g⟩ := H' b hb.1 M N hN hMN hNM hr' hb.2 E e0
      exact ⟨D, v₀, hD, h0, fun _ _ => g⟩
    · exact ⟨0, 1, le_rfl, one_pos, fun h1 h2 => absurd ⟨h1, h2⟩ hb⟩
  choose Db vb hD0 hv0 G using G
  have hDle : ∀ b < d.nsb, Db b ≤ ∑ b ∈ range d.nsb, Db b := fun b hb =>
    single_le_sum (f := Db) (fun b _ => hD0 b) (mem_range.2 hb)
  obtain ⟨v₀, hv1, hv2⟩ : ∃ v₀ : ℝ, 0 < v₀ ∧ ∀ b < d.nsb, v₀ ≤ vb b := by
    have : ∀ k : ℕ, ∃ v₀ : ℝ, 0 < v₀ ∧ ∀ b < k, v₀ ≤ vb b := by
      intro k
      induction k with
      | zero => exact ⟨1, one_pos, fun b hb => absurd hb (Nat.not_lt_zero b)⟩
      | succ k ih =>
        obtain ⟨x, x0, hx⟩ := ih
        refine ⟨min x (vb k), lt_min x0 (hv0 k), fun b hb => ?_⟩
        rcases Nat.lt_succ_iff_lt_or_eq.1 hb with h | rfl
        · exact (min_le_left _ _).trans (hx b h)
        · exact min_le_right _ _
    exact this d.nsb
  refine ⟨∑ b ∈ range d.nsb, Db b, min u₀ v₀, sum_nonneg fun b _ => hD0 b, lt_min p0 hv1, ?_⟩
  intro α _ fin val u hu hle A s s' hg' hm near h' t r hrun b hb T hres
  obtain ⟨r1, r2, r3, r4, r5⟩ := ready_loaded hg h hg' h' hm hr'
  have near' := L α fin val u hu (hle.trans (min_le_left _ _)) A s s' hg' hm near h' { d with M := M, N := N } r2 r3 r4 r5
  obtain ⟨t', r', q1, q2⟩ := G b hb hres α fin val u hu ((hle.trans (min_le_right _ _)).trans (hv2 b hb))
    (settings S M N v s') r1 { near' with surfs := rfl }
  rw [hrun] at q1
  cases q1
  refine q2.mono (add_le_add ?_ ?_)
  · exact mul_le_mul_of_nonneg_right (hCle b hb) (by positivity)
  · exact mul_le_mul_of_nonneg_right (hDle b hb) hu.u_pos.le

/-- **C114.**  Let `f₀` be a `wout` file with exact numbers that `read_wout` accepts, `b₀` the equilibrium it describes, on whose
surfaces the Boozer angles are coordinates, and `p` an order.  There is a constant `C`, and for every request that can be carried
out, with comparable numbers of modes, a constant `D` and a precision `u₀`, such that on every machine of precision `u ≤ u₀` the
following holds.  If the disk holds an input file with this request and a `wout` file whose numbers are within `K u` of those of
`f₀`, then `xbooz_xform` returns 0 and leaves a `boozmn` file that has the requested surfaces, and whose Fourier series,
differentiated term by term `i` times in θ_B and `j` times in ζ_B, are within `C / mboz^p + D u` of the derivatives of |B|, R, Z,
-ν and the Jacobian on each surface resolved by the grid. -/
theorem C114_file {disk₀ : Disk ℝ} {path₀ : String} {f₀ : NcFile ℝ} {z : WoutSizes} {b₀ : St ℝ}
    (hd₀ : disk₀ path₀ = .nc f₀) (hz₀ : WoutShapes f₀ z) (hl₀ : readWout disk₀ path₀ false construct = .ok () b₀)
    (hi : ∀ k, k < (intsOf f₀ "xn_nyq").size → ((intsOf f₀ "xn_nyq").val 0 k).natAbs < 2147483648)
    (hns : z.ns ≤ 2147483644)
    (hfp : FieldPeriodic b₀.inp z.nfp.toNat) (ho : OriginOnce b₀.inp)
    (hreg : ∀ js : ℕ, (js : ℤ) < z.ns - 1 → (surface b₀.inp (decide (z.lasym ≠ 0)) js).Regular)
    (hdet : ∀ js : ℕ, (js : ℤ) < z.ns - 1 → ∀ θ ζ, (surface b₀.inp (decide (z.lasym ≠ 0)) js).det θ ζ ≠ 0)
    (surfs : List ℤ) (hlen : surfs.length ≤ 2147483644) {c : ℝ} (hc0 : 0 ≤ c) {ρ : ℝ} (hρ : ρ < 1) (i j p : ℕ) :
    ∃ C, ∀ r : Request, r.surfs = surfs → CanRun f₀ z r → 1 ≤ torRes z r →
      (polRes z r : ℝ) ≤ c * torRes z r → (torRes z r : ℝ) ≤ c * polRes z r → ∀ K : ℝ, 0 ≤ K → ∃ D u₀, 0 < u₀ ∧
      ∀ (α : Type) [Arith α] (fin : α → Prop) (val : α → ℝ) (u : ℝ), Precision α fin val u → u ≤ u₀ →
      ∀ (w : World α) (content : List Char) (path prog : String) (env : Env) (version : String) (f : NcFile α),
        w.disk path = .other content → Asks content r →
        w.disk ("wout_" ++ String.ofList r.ext ++ ".nc") = .nc f → WoutShapes f z → WoutNear fin val z (K * u) f f₀ →
        VersionOk version → NoFailure env →
        ∃ w' out, driver env version [prog, path] w = .ok 0 w' ∧
          w'.disk ("boozmn_" ++ String.ofList r.ext ++ ".nc") = .nc out ∧
          (∀ js, Wanted z r js ↔ ∃ b, FileInt out "jlist" b (js + 2)) ∧
          ∀ b js, FileInt out "jlist" b (js + 2) → let S := surface b₀.inp (decide (z.lasym ≠ 0)) js.toNat
            S.ResolvedBy z.nfp.toNat (polRes z r) (torRes z r) ρ →
            FileDerivs fin val i j out S (decide (z.lasym ≠ 0))
              (numModes (polRes z r) (torRes z r)) b (C * (1 / (polRes z r : ℝ)) ^ p + D * u) := by
  obtain ⟨hg₀, hl₀'⟩ := wout_loaded hd₀ hz₀ hl₀
  obtain ⟨-, -, C₀, -⟩ := vmec_inv hg₀ hl₀'
  have hns2 : 2 ≤ z.ns := C₀.ns_ge
  by_cases hex : ∃ r : Request, r.surfs = surfs ∧ CanRun f₀ z r
  swap
  · exact ⟨0, fun r h1 h2 => absurd ⟨r, h1, h2⟩ hex⟩
  obtain ⟨r₁, rfl, hc₁⟩ := hex
  obtain ⟨l, hS, hl1, hl2, hmem⟩ := wantedVec_full (r := r₁) hns2
  have hr₁ := requested_ready hg₀ hl₀' hi hc₁ hS hl1
  have hsel : ∀ b (hb : b < l.length), (wantedVec z r₁).val 0 b = l[b] := fun b hb => by rw [hS, val_list hb]
  have range : ∀ b < l.length, 0 ≤ (wantedVec z r₁).val 0 b ∧ (wantedVec z r₁).val 0 b < z.ns - 1 := fun b hb => by
    have := hr₁.surfs_range b hb
    have h1 : 0 ≤ (wantedVec z r₁).val 0 b := this.1
    have h2 : ((wantedVec z r₁).val 0 b) < ((z.ns - 1).toNat : ℕ) := this.2
    omega
  have range' : ∀ b < l.length, (((wantedVec z r₁).val 0 b).toNat : ℤ) < z.ns - 1 := fun b hb => by
    have := range b hb
    omega
  obtain ⟨C, hC, H⟩ := C114_load hg₀ hl₀' hr₁ hfp ho (fun b hb => hreg _ (range' b hb)) (fun b hb => hdet _ (range' b hb))
    hc0 hρ i j p
  refine ⟨C, fun r hrs hc hN hMN hNM K hK => ?_⟩
  have hW : wantedVec z r = wantedVec z r₁ := by unfold wantedVec; rw [hrs]
  have hr := requested_ready hg₀ hl₀' hi hc (hW.trans hS) hl1
  obtain ⟨D, u₀, hD, h0, G⟩ := H (polRes z r) (torRes z r) hN hMN hNM (by rw [← hW]; exact hr) K hK
  refine ⟨D, u₀, h0, fun α _ fin val u hu hle w content path prog env version f hp ha hd hz hn hv he => ?_⟩
  obtain ⟨b, hb⟩ := loads_near hd₀ hz₀ hl₀ hd hz hn
  obtain ⟨hg, hl⟩ := wout_loaded hd hz hb
  have hx := hn.modes "xn_nyq" (by simp)
  obtain ⟨w', hw'⟩ := (C43_exact (prog := prog) hp ha hd hz hb (by rw [hx]; exact hi) hv he (by rw [hrs]; exact hlen)
    hns).1.2 ((canRun_near hn r).2 hc)
  obtain ⟨b1, t, rep, v, k1, k2, k3, k4⟩ := driver_inv hp ha hw'
  cases (show Out.ok () b1 = Out.ok () b from k1.symm.trans hb)
  have hmp := hc.1.mpol
  have e0 : (woutSizesOf f₀ z).mpol = z.mpol := rfl
  obtain ⟨e1, e2⟩ := res_eq (z := z) (r := r) (by omega)
  rw [requested_settings r hg hl, ← e1, ← e2, hW] at k2
  rw [woutSizes_near hn] at hg
  have q2 := G α fin val u hu hle _ _ b hg (sameModes_near hn) (argsNear_near hz hn) hl t rep k2
  have R := (ready_loaded hg₀ hl₀' hg hl (sameModes_near hn) hr).1
  rw [hW] at R
  have hflux : FluxOk (settings (wantedVec z r₁) (polRes z r) (torRes z r) 1 b).flux (z.ns - 1).toNat := by
    rw [vmec_result hg hl]
    exact .inl rfl
  have HR := run_hasResults R hl1 (by show l.length ≤ _; omega) (by show (z.ns - 1).toNat + 1 ≤ _; omega) hflux
  rw [← (run_false R k2).1] at HR
  obtain ⟨out, o1, o2⟩ := C34_layout HR hv k3
  have hj : HoldsSurfs out l.length (listVec l) := by
    have := o2.jlist
    rw [(run_false R k2).1] at this
    rw [← hS]
    exact this
  refine ⟨w', out, hw', by rw [k4]; exact o1, fun js => ?_, fun b' js g1 => ?_⟩
  · have : Wanted z r js ↔ Wanted z r₁ js := by unfold Wanted; rw [hrs]
    rw [this, ← hmem, List.mem_iff_getElem]
    exact exists_congr fun b => (fileSurf_iff hj).symm
  intro S hres
  obtain ⟨hb', rfl⟩ := (fileSurf_iff hj).1 g1
  have key := q2 b' hb'
  rw [hsel b' hb'] at key
  exact file_derivs (d := (loadedContents z.ns (woutSizesOf f₀ z) ((intsOf f₀ "xm_nyq").val 0 (z.mnmax_nyq.toNat - 1))
      l.length).dims (polRes z r) (torRes z r)) hu o2 hb' (key hres)

/-! ### Non-vacuity -/

/-- C114 for the file: the mixed second derivatives on the two surfaces asked for, on machines with more and more bits. -/
example : ∃ b₀ : St ℝ, readWout (Ex.softWorld Ex.input).disk ("wout_" ++ String.ofList ['x'] ++ ".nc") false construct =
      .ok () b₀ ∧ ∃ C D : ℝ, ∃ p₀, ∀ p ≥ p₀, ∃ w' out,
    driver Ex.calm "0.0.1" ["xbooz_xform", "in"] (Ex.softWorld (α := Ex.Flp p) Ex.input) = .ok 0 w' ∧
    w'.disk ("boozmn_" ++ String.ofList ['x'] ++ ".nc") = .nc out ∧
    ∀ b j, FileInt out "jlist" b (j + 2) → j.toNat < 3 →
      FileDerivs (fun _ => True) Ex.Flp.val 1 1 out (surface b₀.inp false j.toNat) false (numModes 16 8) b (C * (1 / 16) ^ 9 + D * (4 / 2 ^ p)) := by
  obtain ⟨b₀, h₀⟩ := Ex.soft_loads (α := ℝ) Ex.input
  have s := Ex.softened h₀
  obtain ⟨hp, ho, hreg, hdet⟩ := Ex.softened_ok s
  refine ⟨b₀, h₀, ?_⟩
  have hi : ∀ k, k < (intsOf (Ex.soft (α := ℝ)) "xn_nyq").size →
      ((intsOf (Ex.soft (α := ℝ)) "xn_nyq").val 0 k).natAbs < 2147483648 := by
    rw [Ex.soft_ints (by decide)]
    exact Ex.wout_nyq
  obtain ⟨C, H⟩ := C114_file (Ex.softWorld_wout _) Ex.soft_shapes h₀ hi (by decide) hp ho hreg hdet [1, 0] (by decide)
    (c := 2) (by norm_num) (ρ := 1 / 2) (by norm_num) 1 1 9
  have eM : polRes (Ex.woutZ 0) Ex.request = 16 := rfl
  have eN : torRes (Ex.woutZ 0) Ex.request = 8 := rfl
  obtain ⟨D, u₀, h0, G⟩ := H Ex.request rfl Ex.soft_can_run (by decide) (by rw [eM, eN]; norm_num)
    (by rw [eM, eN]; norm_num) 100 (by norm_num)
  obtain ⟨p₀, hp₀⟩ := Ex.bits h0
  refine ⟨C, D, p₀, fun p hp => ?_⟩
  obtain ⟨w', out, g1, g2, -, g3⟩ := G (Ex.Flp p) _ Ex.Flp.val (4 / 2 ^ p) (Ex.flp_precision p) (hp₀ p hp)
    (Ex.softWorld Ex.input) Ex.input "in" "xbooz_xform" Ex.calm "0.0.1" Ex.soft (Ex.softWorld_in _) Ex.input_asks
    (Ex.softWorld_wout _) Ex.soft_shapes (Ex.soft_near p) Ex.version Ex.noFailure
  refine ⟨w', out, g1, g2, fun b j hb hj => ?_⟩
  have := g3 b j hb (Ex.soft_resolved s hj)
  rw [eM, eN] at this
  push_cast at this
  exact this

end Booz
