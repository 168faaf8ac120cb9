import Verif.Props.Run
import Verif.Lemmas.AsymFree

/-!
# C23, C25, C26: what the outputs depend on
-/

namespace Booz
open Spec
variable {α : Type} [Arith α]

/-! ### C23 -/

/-- **C23 (run).** With `asym = false`, `run()` behaves in the same way (same outputs, same report,
same fault if any) whatever the asymmetric input arrays contain, and does not change them.  For
every object, well-formed or not. -/
theorem C23_run {dbg : Bool} {s : St α} (ha : s.inp.asym = some false)
    (a₁ a₂ a₃ a₄ a₅ a₆ : Mat α) :
    run dbg { s with
      inp := { s.inp with
        rmns := a₁, zmnc := a₂, lmnc := a₃, bmns := a₄, bsubumns := a₅, bsubvmns := a₆ } } =
      match run dbg s with
      | .ok (s', r) => .ok ({ s' with
          inp := { s'.inp with
            rmns := a₁, zmnc := a₂, lmnc := a₃, bmns := a₄, bsubumns := a₅, bsubvmns := a₆ } }, r)
      | .error e => .error e := by
  have := run_asymFree ⟨a₁, a₂, a₃, a₄, a₅, a₆⟩ dbg ha
  refine Eq.trans this ?_
  cases run dbg s <;> rfl

/-- The example with empty asymmetric arrays, and one that computes. -/
example : (Ex.st (α := α) false).inp.asym = some false ∧
    ∃ r, run false (Ex.st (α := α) false) = .ok r := ⟨rfl, _, run_ok (Ex.ready false) (by simp) (by simp)⟩

/-! ### C25, C26 -/

/-- Surface `b₁` of the outputs `o₁` equals surface `b₂` of `o₂`: all spectra and the two flux
functions. -/
def Spec.SameColumn (asym : Bool) (o₁ o₂ : Outputs α) (b₁ b₂ : Nat) : Prop :=
  o₁.boozer_I.rdN b₁ = o₂.boozer_I.rdN b₂ ∧ o₁.boozer_G.rdN b₁ = o₂.boozer_G.rdN b₂ ∧
  ∀ k, o₁.spec.bmnc_b.rdN k b₁ = o₂.spec.bmnc_b.rdN k b₂ ∧
    o₁.spec.rmnc_b.rdN k b₁ = o₂.spec.rmnc_b.rdN k b₂ ∧
    o₁.spec.zmns_b.rdN k b₁ = o₂.spec.zmns_b.rdN k b₂ ∧
    o₁.spec.numns_b.rdN k b₁ = o₂.spec.numns_b.rdN k b₂ ∧
    o₁.spec.gmnc_b.rdN k b₁ = o₂.spec.gmnc_b.rdN k b₂ ∧
    (asym = true → o₁.spec.bmns_b.rdN k b₁ = o₂.spec.bmns_b.rdN k b₂ ∧
      o₁.spec.rmns_b.rdN k b₁ = o₂.spec.rmns_b.rdN k b₂ ∧
      o₁.spec.zmnc_b.rdN k b₁ = o₂.spec.zmnc_b.rdN k b₂ ∧
      o₁.spec.numnc_b.rdN k b₁ = o₂.spec.numnc_b.rdN k b₂ ∧
      o₁.spec.gmns_b.rdN k b₁ = o₂.spec.gmns_b.rdN k b₂)

omit [Arith α] in
theorem dimAgree_of {d₁ d₂ : Dims} {I₁ I₂ : Inputs α} (h₁ : RunReady I₁ d₁) (h₂ : RunReady I₂ d₂)
    (hM : I₁.mboz = I₂.mboz) (hN : I₁.nboz = I₂.nboz) (hp : I₁.nfp = I₂.nfp) (ha : I₁.asym = I₂.asym)
    (hx : I₁.xm = I₂.xm) (hq : I₁.xm_nyq = I₂.xm_nyq) : DimAgree d₁ d₂ := by
  have m1 := h₁.mboz; have m2 := h₂.mboz
  have n1 := h₁.nboz; have n2 := h₂.nboz
  have p1 := h₁.nfp; have p2 := h₂.nfp
  have a1 := h₁.asym; have a2 := h₂.asym
  refine ⟨?_, by omega, by omega, ?_, ?_, ?_⟩
  · rw [ha, a2] at a1; exact (Option.some.inj a1).symm
  · rw [hp, p2] at p1; exact_mod_cast (Option.some.inj p1).symm
  · rw [← h₁.xm.1, ← h₂.xm.1, hx]
  · rw [← h₁.xm_nyq.1, ← h₂.xm_nyq.1, hq]

omit [Arith α] in
theorem Mat.rdN_tab_eq {r c₁ c₂ : Nat} {f g : Nat → Nat → α} {i j₁ j₂ : Nat} (h1 : j₁ < c₁) (h2 : j₂ < c₂)
    (h : f i j₁ = g i j₂) : (Mat.tab r c₁ f).rdN i j₁ = (Mat.tab r c₂ g).rdN i j₂ := by
  by_cases hi : i < r
  · rw [Mat.rdN_tab hi h1, Mat.rdN_tab hi h2, h]
  · unfold Mat.rdN
    rw [if_neg, if_neg]
    · simp [Mat.tab, hi]
    · simp [Mat.tab, hi]

theorem sameColumn_of {s₁ s₂ : St α} {d₁ d₂ : Dims} {b₁ b₂ : Nat} (hd : DimAgree d₁ d₂)
    (hv : ValAgree d₁ s₁.inp s₂.inp (surf s₁.inp b₁) (surf s₂.inp b₂)) (hb₁ : b₁ < d₁.nsb)
    (hb₂ : b₂ < d₂.nsb) :
    SameColumn d₁.asym (runSt d₁ s₁ d₁.nsb).out (runSt d₂ s₂ d₂.nsb).out b₁ b₂ := by
  have hI : ∀ {s : St α} {d : Dims} {b : Nat}, b < d.nsb → (runSt d s d.nsb).out.boozer_I.rdN b =
      .ok (if b < d.nsb then curI s.inp d (surf s.inp b) else ofInt 0) := fun hb => Vec.rdN_tab hb
  have hG : ∀ {s : St α} {d : Dims} {b : Nat}, b < d.nsb → (runSt d s d.nsb).out.boozer_G.rdN b =
      .ok (if b < d.nsb then curG s.inp d (surf s.inp b) else ofInt 0) := fun hb => Vec.rdN_tab hb
  have hsp : ∀ {s : St α} {d : Dims}, (runSt d s d.nsb).out.spec =
      specTab d (outF s.inp d d.nsb) s.out.spec := rfl
  refine ⟨?_, ?_, fun k => ?_⟩
  · rw [hI hb₁, hI hb₂, if_pos hb₁, if_pos hb₂, curI_congr hd hv]
  · rw [hG hb₁, hG hb₂, if_pos hb₁, if_pos hb₂, curG_congr hd hv]
  · obtain ⟨e1, e2, e3, e4, e5, e6, e7, e8, e9, e10⟩ := outF_congr hd hv hb₁ hb₂ k
    rw [hsp, hsp]
    unfold specTab
    rw [← hd.nmodes, ← hd.asym]
    cases d₁.asym
    · exact ⟨Mat.rdN_tab_eq hb₁ hb₂ e1, Mat.rdN_tab_eq hb₁ hb₂ e2, Mat.rdN_tab_eq hb₁ hb₂ e3,
        Mat.rdN_tab_eq hb₁ hb₂ e4, Mat.rdN_tab_eq hb₁ hb₂ e5, by simp⟩
    · exact ⟨Mat.rdN_tab_eq hb₁ hb₂ e1, Mat.rdN_tab_eq hb₁ hb₂ e2, Mat.rdN_tab_eq hb₁ hb₂ e3,
        Mat.rdN_tab_eq hb₁ hb₂ e4, Mat.rdN_tab_eq hb₁ hb₂ e5, fun _ =>
        ⟨Mat.rdN_tab_eq hb₁ hb₂ e6, Mat.rdN_tab_eq hb₁ hb₂ e7, Mat.rdN_tab_eq hb₁ hb₂ e8,
          Mat.rdN_tab_eq hb₁ hb₂ e9, Mat.rdN_tab_eq hb₁ hb₂ e10⟩⟩

/-- **C25.** Column `b` of the outputs depends only on the resolution, `nfp`, `asym` and the data of
surface `compute_surfs[b]`: two objects that agree on these give equal columns, whatever they hold
for other surfaces (even a different number of surfaces). -/
theorem C25_surfaces_independent {s₁ s₂ s₁' s₂' : St α} {d₁ d₂ : Dims} {r₁ r₂ : List (Report α)}
    {b₁ b₂ : Nat} (h₁ : RunReady s₁.inp d₁) (h₂ : RunReady s₂.inp d₂)
    (hM : s₁.inp.mboz = s₂.inp.mboz) (hN : s₁.inp.nboz = s₂.inp.nboz) (hp : s₁.inp.nfp = s₂.inp.nfp)
    (ha : s₁.inp.asym = s₂.inp.asym) (hb₁ : b₁ < d₁.nsb) (hb₂ : b₂ < d₂.nsb)
    (hs : SameSurface d₁.asym s₁.inp s₂.inp (selected s₁.inp b₁) (selected s₂.inp b₂))
    (hr₁ : run false s₁ = .ok (s₁', r₁)) (hr₂ : run false s₂ = .ok (s₂', r₂)) :
    SameColumn d₁.asym s₁'.out s₂'.out b₁ b₂ := by
  obtain ⟨rfl, -⟩ := run_false h₁ hr₁
  obtain ⟨rfl, -⟩ := run_false h₂ hr₂
  have hd := dimAgree_of h₁ h₂ hM hN hp ha hs.xm hs.xm_nyq
  have l1 := h₁.surfs_range b₁ hb₁
  have l2 := h₂.surfs_range b₂ hb₂
  have hv := valAgree_of h₁ h₂ hd (by unfold selected; omega) (by unfold selected; omega) hs
  exact sameColumn_of hd hv hb₁ hb₂

/-- Two different objects: the example, and the example with the data of surface 0 changed; column 0
(surface 1) is the same. -/
example (x : α) : SameSurface true (Ex.inputs (α := α) true)
    { Ex.inputs true with iota := #[some x, (Ex.inputs (α := α) true).iota[1]!] } 1 1 := by
  refine ⟨rfl, rfl, rfl, rfl, ?_, fun _ _ => rfl, fun _ _ => rfl, fun _ _ => rfl, fun _ _ => rfl,
    fun _ _ => rfl, fun _ _ => rfl, fun _ _ _ => rfl, fun _ _ _ => rfl, fun _ _ _ => rfl,
    fun _ _ _ => rfl, fun _ _ _ => rfl, fun _ _ _ => rfl⟩
  rfl

omit [Arith α] in
/-- Another legal selection keeps inputs well-formed. -/
theorem RunReady.allSurfs {I : Inputs α} {d : Dims} (h : RunReady I d) {c : Vec Int} {n : Nat}
    (hc : c.Full n) (hr : ∀ b < n, 0 ≤ c.val 0 b ∧ c.val 0 b < d.ns) :
    RunReady { I with compute_surfs := c } { d with nsb := n } :=
  ⟨⟨h.asym, h.nfp, h.nfp_pos, h.mpol, h.mpol_ge, h.ntor, h.mnmax, h.mpol_nyq, h.mpol_nyq_ge,
      h.ntor_nyq, h.mnmax_nyq, h.mnmax_nyq_ge, h.ns_in, h.mboz, h.mboz_ge, h.nboz, h.xm, h.xm_range,
      h.xn, h.xn_range, h.xn_int, h.xm_nyq, h.xm_nyq_range, h.xn_nyq, h.xn_nyq_range, h.xn_nyq_int,
      h.s_in, h.iota, h.rmnc, h.zmns, h.lmns, h.bmnc, h.bsubumnc, h.bsubvmnc, h.rmns, h.zmnc, h.lmnc,
      h.bmns, h.bsubumns, h.bsubvmns, hc, hr, h.fit_ntor, h.fit_mq, h.fit_nq,
      h.fit_mpol⟩, h.fit_theta, h.fit_zeta, h.fit_pts, h.fit_nfp⟩

/-- `compute_surfs = 0, 1, ..., n-1`. -/
def Spec.allSurfaces (n : Nat) : Vec Int := (Array.range n).map fun j : Nat => some (j : Int)

theorem allSurfaces_eq (n : Nat) : allSurfaces n = Vec.tab n fun j => (j : Int) := by
  apply Array.ext
  · simp [allSurfaces, Vec.tab]
  · intro i h1 h2
    simp [allSurfaces, Vec.tab]

/-- **C26.** For any legal selection, reordered, repeated or partial, the run on all surfaces also
succeeds, column `b` of the outputs is column `compute_surfs[b]` of that run, and
`s_b[b] = s_in[compute_surfs[b]]`. -/
theorem C26_selection {s s' : St α} {d : Dims} {r : List (Report α)} (h : RunReady s.inp d)
    (hr : run false s = .ok (s', r)) :
    ∃ sa ra, run false { s with inp := { s.inp with compute_surfs := allSurfaces d.ns } } = .ok (sa, ra) ∧
      ∀ b < d.nsb, SameColumn d.asym s'.out sa.out b (selected s.inp b) ∧
        s'.out.s_b.rdN b = s.inp.s_in.rdN (selected s.inp b) ∧
        sa.out.s_b.rdN (selected s.inp b) = s.inp.s_in.rdN (selected s.inp b) := by
  obtain ⟨rfl, -⟩ := run_false h hr
  rw [allSurfaces_eq]
  have h2 : RunReady { s.inp with compute_surfs := Vec.tab d.ns fun j => (j : Int) }
      { d with nsb := d.ns } := by
    refine RunReady.allSurfs h (Vec.full_tab _ _) ?_
    intro b hb
    rw [Vec.val_tab hb]
    omega
  refine ⟨_, _, run_ok (s := { s with inp := { s.inp with compute_surfs := Vec.tab d.ns fun j => (j : Int) } })
    h2 (by simp) (by simp), ?_⟩
  intro b hb
  have l1 := h.surfs_range b hb
  have hlt : selected s.inp b < d.ns := by unfold selected; omega
  have hsel : surf { s.inp with compute_surfs := Vec.tab d.ns fun j => (j : Int) } (selected s.inp b) =
      selected s.inp b := by
    show (Vec.val 0 (Vec.tab d.ns fun j => (j : Int)) (selected s.inp b)).toNat = _
    rw [Vec.val_tab hlt, Int.toNat_natCast]
  have hd : DimAgree d { d with nsb := d.ns } := ⟨rfl, rfl, rfl, rfl, rfl, rfl⟩
  refine ⟨sameColumn_of hd ?_ hb hlt, ?_, ?_⟩
  · show ValAgree d s.inp { s.inp with compute_surfs := Vec.tab d.ns fun j => (j : Int) } (selected s.inp b) _
    rw [hsel]
    exact ⟨rfl, rfl, rfl, rfl, rfl, fun _ _ => rfl, fun _ _ => rfl, fun _ _ => rfl, fun _ _ => rfl,
      fun _ _ => rfl, fun _ _ => rfl, fun _ _ _ => rfl, fun _ _ _ => rfl, fun _ _ _ => rfl,
      fun _ _ _ => rfl, fun _ _ _ => rfl, fun _ _ _ => rfl⟩
  · rw [h.s_in.rdN (ofInt 0) hlt]
    exact Vec.rdN_tab hb
  · rw [h.s_in.rdN (ofInt 0) hlt]
    have : ∀ {s : St α} {d : Dims} {b : Nat}, b < d.nsb → (runSt d s d.nsb).out.s_b.rdN b =
      .ok (s.inp.s_in.val (ofInt 0) (surf s.inp b)) := fun hb => Vec.rdN_tab hb
    rw [this (d := { d with nsb := d.ns }) hlt, hsel]

example : ∃ s' r, run false (Ex.st (α := α) true) = .ok (s', r) ∧
    selected (Ex.inputs (α := α) true) 0 = 1 := by
  obtain ⟨s', r, hr⟩ := C05_run_safe (s := Ex.st (α := α) true) (Ex.ready true)
  exact ⟨s', r, hr, rfl⟩

end Booz
