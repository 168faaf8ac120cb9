import Verif.Spec.Functions
import Verif.Lemmas.FnCongr
import Verif.Lemmas.ChkReal
import Verif.Examples

/-!
# C83: only the functions matter, not how their harmonics are listed
-/

namespace Booz
open Spec Finset

variable {I I' : Inputs ℝ} {d d' : Dims}

theorem lastZero_at {k₀ : ℕ} (ho : OriginAt I k₀) (f : ℕ → ℝ) (z : ℝ) {K : ℕ} (hk : k₀ < K) (hK : K ≤ I.xm_nyq.size) :
    lastZero I f z K = f k₀ := by
  induction K with
  | zero => omega
  | succ K ih =>
    by_cases h0 : K = k₀
    · subst h0
      have := (ho.2 K (by omega)).mpr rfl
      simp [lastZero, this]
    · have := mt (ho.2 K (by omega)).mp h0
      simp only [lastZero, this, if_false]
      exact ih (by omega) (by omega)

/-- The flux functions are the means of the covariant components. -/
theorem cur_mean (h : RunReady I d) {k₀ : ℕ} (ho : OriginAt I k₀) (js : ℕ) :
    curI I d js = 1 / (2 * Real.pi) * (∫ u in (0 : ℝ)..2 * Real.pi, meanT (bTheta I d.asym js) u) ∧
    curG I d js = 1 / (2 * Real.pi) * (∫ u in (0 : ℝ)..2 * Real.pi, meanT (bZeta I d.asym js) u) := by
  have key : ∀ c : ℕ → ℝ, (∑ k ∈ range I.xm_nyq.size, if I.xm_nyq.val 0 k = 0 ∧ I.xn_nyq.val 0 k = 0 then c k else 0) =
      c k₀ := by
    intro c
    rw [sum_eq_single k₀]
    · rw [if_pos ((ho.2 k₀ ho.1).2 rfl)]
    · intro k hk hne
      rw [if_neg fun e => hne ((ho.2 k (mem_range.1 hk)).1 e)]
    · intro e
      exact absurd (mem_range.2 ho.1) e
  unfold bTheta bZeta curI curG
  rw [mean_series, mean_series, key, key, lastZero_at ho _ _ (by rw [← h.xm_nyq.1]; exact ho.1) (by rw [h.xm_nyq.1]),
    lastZero_at ho _ _ (by rw [← h.xm_nyq.1]; exact ho.1) (by rw [h.xm_nyq.1])]
  simp [ev]

/-- `w` is determined by the covariant components. -/
theorem w_of (I : Inputs ℝ) (asym : Bool) (js : ℕ) :
    (surface I asym js).w = wOf (bTheta I asym js) (bZeta I asym js) := by
  funext θ ζ
  unfold bTheta bZeta
  rw [← wOf_series]
  show series _ _ _ _ _ θ ζ = _
  unfold series
  refine sum_congr rfl fun k _ => ?_
  cases asym
  · simp only [onlyIf, wCos]
    congr 2
    split
    · simp
    · simp
  · rfl

/-- The functions evaluated by the code agree if the functions of the input do. -/
theorem fnAgree_of (hd : DimFn d d') (h : RunReady I d) (h' : RunReady I' d') (hp : FieldPeriodic I d.nfp)
    (hp' : FieldPeriodic I' d'.nfp) {k₀ k₀' : ℕ} (ho : OriginAt I k₀) (ho' : OriginAt I' k₀') {j j' : ℕ}
    (hf : SameFunctions d.asym I I' j j') : FnAgree d d' I I' j j' := by
  have ha := hd.asym
  have hw : (surface I d.asym j).w = (surface I' d'.asym j').w := by
    rw [w_of, w_of, hf.bTheta, hf.bZeta, ha]
  have hl := hf.lam
  have hR := hf.R
  have hZ := hf.Z
  have hB := hf.B
  rw [ha] at hR hZ hB
  refine ⟨?_, ?_, ?_, ?_, ?_, ?_, ?_, ?_, ?_, ?_, ?_, ?_⟩
  · simpa [iotaV] using hf.iota
  · rw [(cur_mean h ho j).1, (cur_mean h' ho' j').1, hf.bTheta, ha]
  · rw [(cur_mean h ho j).2, (cur_mean h' ho' j').2, hf.bZeta, ha]
  · funext θ ζ; rw [rP_real h hp, rP_real h' hp', ← hR, ha]
  · funext θ ζ; rw [zP_real h hp, zP_real h' hp', ← hZ, ha]
  · funext θ ζ; rw [lP_real h hp, lP_real h' hp', hl, ha]
  · funext θ ζ
    have e := ltP_real h hp j θ ζ
    rw [hl, ha] at e
    exact e.unique (ltP_real h' hp' j' θ ζ)
  · funext θ ζ
    have e := lzP_real h hp j θ ζ
    rw [hl, ha] at e
    exact e.unique (lzP_real h' hp' j' θ ζ)
  · funext θ ζ; rw [wP_real h hp, wP_real h' hp', hw]
  · funext θ ζ
    have e := wtP_real h hp j θ ζ
    rw [hw] at e
    exact e.unique (wtP_real h' hp' j' θ ζ)
  · funext θ ζ
    have e := wzP_real h hp j θ ζ
    rw [hw] at e
    exact e.unique (wzP_real h' hp' j' θ ζ)
  · funext θ ζ; rw [bP_real h hp, bP_real h' hp', ← hB, ha]

/-- **C83** (what holds). In exact arithmetic, two objects whose listed surfaces have the same functions, however many
harmonics represent them and in whatever order, get the same outputs and the same accuracy report from `run()`,
except `Boozer_I_all` and `Boozer_G_all`.  Those agree too, surface by surface, if in both lists of Nyquist modes the
first is (0,0).  (A debug build aborts unless it is.) -/
theorem C83_partial {s s' : St ℝ} {dbg : Bool} (hd : d'.asym = d.asym ∧ d'.M = d.M ∧ d'.N = d.N ∧ d'.nfp = d.nfp ∧ d'.nsb = d.nsb)
    (h : RunReady s.inp d) (h' : RunReady s'.inp d') (hp : FieldPeriodic s.inp d.nfp) (hp' : FieldPeriodic s'.inp d.nfp)
    {k₀ k₀' : ℕ} (ho : OriginAt s.inp k₀) (ho' : OriginAt s'.inp k₀')
    (hdbg : dbg = true → k₀ = 0 ∧ k₀' = 0)
    (hs : ∀ b < d.nsb, selected s.inp b = selected s'.inp b ∧
      s.inp.s_in.val 0 (selected s.inp b) = s'.inp.s_in.val 0 (selected s.inp b))
    (hf : ∀ b < d.nsb, SameFunctions d.asym s.inp s'.inp (selected s.inp b) (selected s.inp b)) :
    ∃ t r t' r', run dbg s = .ok (t, r) ∧ run dbg s' = .ok (t', r') ∧ SameSpectra d.asym t.out t'.out ∧
      (s.inp.verbose = s'.inp.verbose → r = r') ∧
      (k₀ = 0 → k₀' = 0 → ∀ j < d.ns, j < d'.ns → SameFunctions d.asym s.inp s'.inp j j →
        t.out.boozer_I_all.rdN j = t'.out.boozer_I_all.rdN j ∧ t.out.boozer_G_all.rdN j = t'.out.boozer_G_all.rdN j) := by
  obtain ⟨e1, e2, e3, e4, e5⟩ := hd
  have hd : DimFn d d' := ⟨e1.symm, e2.symm, e3.symm, e4.symm⟩
  rw [← e4] at hp'
  have first : ∀ {J : Inputs ℝ}, OriginAt J 0 → OriginFirst J := fun ho => (ho.2 0 ho.1).2 rfl
  have fa : ∀ b < d.nsb, FnAgree d d' s.inp s'.inp (surf s.inp b) (surf s'.inp b) := fun b hb => by
    have := fnAgree_of hd h h' hp hp' ho ho' (hf b hb)
    have e : surf s'.inp b = selected s.inp b := (hs b hb).1.symm
    rw [e]
    exact this
  have col : ∀ b < d.nsb, ∀ k, _ := fun b hb k => outF_fn hd (fa b hb) hb (by rw [e5]; exact hb) k
  have hmat : ∀ {F G : ℕ → ℕ → ℝ}, (∀ b < d.nsb, ∀ k, F k b = G k b) →
      Mat.tab d.nmodes d.nsb F = Mat.tab d'.nmodes d'.nsb G := by
    intro F G hFG
    rw [← hd.nmodes, e5]
    exact Mat.tab_congr fun k _ b hb => hFG b hb k
  have hspec : ∀ {d : Dims} {s : St ℝ}, (runSt d s d.nsb).out.spec = specTab d (outF s.inp d d.nsb) s.out.spec := rfl
  refine ⟨_, _, _, _, run_real h fun e => first ((hdbg e).1 ▸ ho), run_real h' fun e => first ((hdbg e).2 ▸ ho'),
    ?_, ?_, ?_⟩
  · refine ⟨?_, ?_, ?_, ?_, ?_, ?_, ?_, ?_, ?_, ?_, ?_, ?_, ?_, ?_, ?_, ?_, ?_⟩
    · show some (d.nsb : ℤ) = some (d'.nsb : ℤ)
      rw [e5]
    · show Vec.tab d.nsb (fun j => s.inp.s_in.val (ofInt 0) (s.inp.compute_surfs.val 0 j).toNat) =
        Vec.tab d'.nsb fun j => s'.inp.s_in.val (ofInt 0) (s'.inp.compute_surfs.val 0 j).toNat
      rw [e5]
      refine Vec.tab_congr fun b hb => ?_
      have e := (hs b hb).2
      have e' : (s'.inp.compute_surfs.val 0 b).toNat = selected s.inp b := (hs b hb).1.symm
      rw [e']
      simpa [selected] using e
    · show some (d.nmodes : ℤ) = some (d'.nmodes : ℤ)
      rw [hd.nmodes]
    · show Vec.tab d.nmodes (fun j => (modeM d.N j : ℤ)) = Vec.tab d'.nmodes fun j => (modeM d'.N j : ℤ)
      rw [hd.nmodes, hd.N]
    · show Vec.tab d.nmodes (fun j => modeN d.N j * d.nfp) = Vec.tab d'.nmodes fun j => modeN d'.N j * d'.nfp
      rw [hd.nmodes, hd.N, hd.nfp]
    · show Vec.tab d.nsb (fun b => if b < d.nsb then curI s.inp d (surf s.inp b) else ofInt 0) =
        Vec.tab d'.nsb fun b => if b < d'.nsb then curI s'.inp d' (surf s'.inp b) else ofInt 0
      rw [e5]
      refine Vec.tab_congr fun b hb => ?_
      rw [if_pos hb, if_pos hb, (fa b hb).cI]
    · show Vec.tab d.nsb (fun b => if b < d.nsb then curG s.inp d (surf s.inp b) else ofInt 0) =
        Vec.tab d'.nsb fun b => if b < d'.nsb then curG s'.inp d' (surf s'.inp b) else ofInt 0
      rw [e5]
      refine Vec.tab_congr fun b hb => ?_
      rw [if_pos hb, if_pos hb, (fa b hb).cG]
    all_goals rw [hspec, hspec]; unfold specTab; rw [e1]
    · cases d.asym
      · exact hmat fun b hb k => (col b hb k).1
      · exact hmat fun b hb k => (col b hb k).1
    · cases d.asym
      · exact hmat fun b hb k => (col b hb k).2.1
      · exact hmat fun b hb k => (col b hb k).2.1
    · cases d.asym
      · exact hmat fun b hb k => (col b hb k).2.2.1
      · exact hmat fun b hb k => (col b hb k).2.2.1
    · cases d.asym
      · exact hmat fun b hb k => (col b hb k).2.2.2.1
      · exact hmat fun b hb k => (col b hb k).2.2.2.1
    · cases d.asym
      · exact hmat fun b hb k => (col b hb k).2.2.2.2.1
      · exact hmat fun b hb k => (col b hb k).2.2.2.2.1
    all_goals intro ha; rw [if_pos ha, if_pos ha]
    · exact hmat fun b hb k => (col b hb k).2.2.2.2.2.1
    · exact hmat fun b hb k => (col b hb k).2.2.2.2.2.2.1
    · exact hmat fun b hb k => (col b hb k).2.2.2.2.2.2.2.1
    · exact hmat fun b hb k => (col b hb k).2.2.2.2.2.2.2.2.1
    · exact hmat fun b hb k => (col b hb k).2.2.2.2.2.2.2.2.2
  · intro hv
    unfold runReports
    rw [hv, e5]
    split
    · refine List.map_congr_left fun b hb => ?_
      have hb := List.mem_range.1 hb
      exact runReport_fn hd (fa b hb) (hs b hb).1 hb (by rw [e5]; exact hb)
    · rfl
  · rintro rfl rfl j hj hj' hjf
    have ag := fnAgree_of hd h h' hp hp' ho ho' hjf
    have cur : ∀ {J : Inputs ℝ} {D : Dims}, RunReady J D → OriginAt J 0 →
        curI J D j = ev J.bsubumnc 0 j ∧ curG J D j = ev J.bsubvmnc 0 j := fun hJ hO =>
      ⟨lastZero_at hO _ _ (by rw [← hJ.xm_nyq.1]; exact hO.1) (by rw [hJ.xm_nyq.1]),
        lastZero_at hO _ _ (by rw [← hJ.xm_nyq.1]; exact hO.1) (by rw [hJ.xm_nyq.1])⟩
    have gI := ag.cI
    have gG := ag.cG
    rw [(cur h ho).1, (cur h' ho').1] at gI
    rw [(cur h ho).2, (cur h' ho').2] at gG
    constructor
    · show (Vec.tab d.ns _).rdN j = (Vec.tab d'.ns _).rdN j
      rw [Vec.rdN_tab hj, Vec.rdN_tab hj']
      exact congrArg _ gI
    · show (Vec.tab d.ns _).rdN j = (Vec.tab d'.ns _).rdN j
      rw [Vec.rdN_tab hj, Vec.rdN_tab hj']
      exact congrArg _ gG

/-! ### Another order of the modes -/

theorem Spec.PermVec.full {β : Type} {π : Equiv.Perm ℕ} {v v' : Vec β} {n : ℕ} (hp : PermVec π v v') (h : v.Full n)
    (hr : ∀ k, π k < n ↔ k < n) : v'.Full n := by
  refine ⟨hp.1.trans h.1, fun i hi => ?_⟩
  have e := hp.2 i (by rw [h.1]; exact hi)
  obtain ⟨x, hx⟩ := h.2 (π i) ((hr i).2 hi)
  have e1 : v.rdN (π i) = .ok x := by unfold Vec.rdN; rw [hx]
  rw [e1] at e
  unfold Vec.rdN at e
  split at e
  · rename_i y hy
    exact ⟨y, hy⟩
  · cases e
  · cases e

theorem Spec.PermVec.val {β : Type} {π : Equiv.Perm ℕ} {v v' : Vec β} {n : ℕ} (hp : PermVec π v v') (h : v.Full n)
    (hr : ∀ k, π k < n ↔ k < n) (z : β) {k : ℕ} (hk : k < n) : v'.val z k = v.val z (π k) := by
  have e := hp.2 k (by rw [h.1]; exact hk)
  rw [(hp.full h hr).rdN z hk, h.rdN z ((hr k).2 hk)] at e
  exact Except.ok.inj e

theorem Spec.PermRows.full {β : Type} {π : Equiv.Perm ℕ} {a a' : Mat β} {r c : ℕ} (hp : PermRows π a a') (h : a.Full r c)
    (hr : ∀ k, π k < r ↔ k < r) : a'.Full r c := by
  obtain ⟨p1, p2, p3, p4⟩ := hp
  obtain ⟨h1, h2, h3⟩ := h
  refine ⟨p1.trans h1, p2.trans h2, p3.trans h3.1, fun i hi => ?_⟩
  have r0 : 0 < r := Nat.pos_of_ne_zero fun e => by rw [e, Nat.zero_mul] at hi; omega
  have hk : i % r < r := Nat.mod_lt _ r0
  have hj : i / r < c := Nat.div_lt_of_lt_mul hi
  have e := p4 (i % r) (by rw [h1]; exact hk) (i / r) (by rw [h2]; exact hj)
  have e1 : ∃ x, a.rdN (π (i % r)) (i / r) = .ok x := by
    unfold Mat.rdN
    rw [if_pos ⟨by rw [h1]; exact (hr _).2 hk, by rw [h2]; exact hj⟩, h1]
    have hlt : i / r * r + π (i % r) < r * c := by
      have a1 : i / r * r + r ≤ r * c := by
        have : (i / r + 1) * r ≤ c * r := Nat.mul_le_mul_right r hj
        rw [Nat.mul_comm r c]
        nlinarith
      have := (hr _).2 hk
      omega
    obtain ⟨x, hx⟩ := h3.2 _ hlt
    exact ⟨x, by unfold Vec.rdN; rw [hx]⟩
  obtain ⟨x, hx⟩ := e1
  rw [hx] at e
  unfold Mat.rdN at e
  rw [if_pos ⟨by rw [p1, h1]; exact hk, by rw [p2, h2]; exact hj⟩, p1, h1, Nat.div_add_mod'] at e
  unfold Vec.rdN at e
  split at e
  · rename_i y hy
    exact ⟨y, hy⟩
  · cases e
  · cases e

theorem Spec.PermRows.val {β : Type} {π : Equiv.Perm ℕ} {a a' : Mat β} {r c : ℕ} (hp : PermRows π a a') (h : a.Full r c)
    (hr : ∀ k, π k < r ↔ k < r) (z : β) {k j : ℕ} (hk : k < r) (hj : j < c) : a'.val z k j = a.val z (π k) j := by
  have e := hp.2.2.2 k (by rw [h.1]; exact hk) j (by rw [h.2.1]; exact hj)
  rw [(hp.full h hr).rdN z hk hj, h.rdN z ((hr k).2 hk) hj] at e
  exact Except.ok.inj e

/-- A series does not depend on the order of its terms. -/
theorem series_perm {K : ℕ} {π : Equiv.Perm ℕ} (hr : ∀ k, π k < K ↔ k < K) {m n m' n' : ℕ → ℤ} {c s c' s' : ℕ → ℝ}
    (hm : ∀ k < K, m' k = m (π k)) (hn : ∀ k < K, n' k = n (π k)) (hc : ∀ k < K, c' k = c (π k))
    (hs : ∀ k < K, s' k = s (π k)) : series K m n c s = series K m' n' c' s' := by
  funext θ ζ
  unfold series
  refine (Finset.sum_equiv π (fun k => ?_) fun k hk => ?_).symm
  · rw [mem_range, mem_range]
    exact (hr k).symm
  · have hk := mem_range.1 hk
    rw [hm k hk, hn k hk, hc k hk, hs k hk]

/-- Inputs with the modes in another order are as well-formed as the original, and describe the same functions. -/
theorem reordered {π ρ : Equiv.Perm ℕ} (h : RunReady I d) (hp : FieldPeriodic I d.nfp) (hr : Reordered π ρ I I') :
    RunReady I' d ∧ FieldPeriodic I' d.nfp ∧ (∀ k₀, OriginAt I k₀ → OriginAt I' (ρ.symm k₀)) ∧
      ∀ j < d.ns, SameFunctions d.asym I I' j j := by
  have r1 : ∀ k, π k < d.mnmax ↔ k < d.mnmax := fun k => by rw [← h.xm.1]; exact hr.range k
  have r2 : ∀ k, ρ k < d.mnq ↔ k < d.mnq := fun k => by rw [← h.xm_nyq.1]; exact hr.range_nyq k
  have vm := fun k hk => hr.xm.val h.xm r1 (0 : ℤ) (k := k) hk
  have vn := fun k hk => hr.xn.val h.xn r1 (0 : ℤ) (k := k) hk
  have wm := fun k hk => hr.xm_nyq.val h.xm_nyq r2 (0 : ℤ) (k := k) hk
  have wn := fun k hk => hr.xn_nyq.val h.xn_nyq r2 (0 : ℤ) (k := k) hk
  have fm := hr.xm.full h.xm r1
  have fn := hr.xn.full h.xn r1
  have gm := hr.xm_nyq.full h.xm_nyq r2
  have gn := hr.xn_nyq.full h.xn_nyq r2
  have asym' : I'.asym = I.asym := by rw [hr.rest]
  have iota' : I'.iota = I.iota := by rw [hr.rest]
  have surfs' : I'.compute_surfs = I.compute_surfs := by rw [hr.rest]
  have ready : RunReady I' d :=
    { asym := asym'.trans h.asym
      nfp := by rw [hr.rest]; exact h.nfp
      nfp_pos := h.nfp_pos
      mpol := by rw [hr.rest]; exact h.mpol
      mpol_ge := h.mpol_ge
      ntor := by rw [hr.rest]; exact h.ntor
      mnmax := by rw [hr.rest]; exact h.mnmax
      mpol_nyq := by rw [hr.rest]; exact h.mpol_nyq
      mpol_nyq_ge := h.mpol_nyq_ge
      ntor_nyq := by rw [hr.rest]; exact h.ntor_nyq
      mnmax_nyq := by rw [hr.rest]; exact h.mnmax_nyq
      mnmax_nyq_ge := h.mnmax_nyq_ge
      ns_in := by rw [hr.rest]; exact h.ns_in
      mboz := by rw [hr.rest]; exact h.mboz
      mboz_ge := h.mboz_ge
      nboz := by rw [hr.rest]; exact h.nboz
      xm := fm
      xm_range := fun k hk => by rw [vm k hk]; exact h.xm_range _ ((r1 k).2 hk)
      xn := fn
      xn_range := fun k hk => by rw [vn k hk]; exact h.xn_range _ ((r1 k).2 hk)
      xn_int := fun k hk => by rw [vn k hk]; exact h.xn_int _ ((r1 k).2 hk)
      xm_nyq := gm
      xm_nyq_range := fun k hk => by rw [wm k hk]; exact h.xm_nyq_range _ ((r2 k).2 hk)
      xn_nyq := gn
      xn_nyq_range := fun k hk => by rw [wn k hk]; exact h.xn_nyq_range _ ((r2 k).2 hk)
      xn_nyq_int := fun k hk => by rw [wn k hk]; exact h.xn_nyq_int _ ((r2 k).2 hk)
      s_in := by rw [hr.rest]; exact h.s_in
      iota := by rw [hr.rest]; exact h.iota
      rmnc := hr.rmnc.full h.rmnc r1
      zmns := hr.zmns.full h.zmns r1
      lmns := hr.lmns.full h.lmns r1
      bmnc := hr.bmnc.full h.bmnc r2
      bsubumnc := hr.bsubumnc.full h.bsubumnc r2
      bsubvmnc := hr.bsubvmnc.full h.bsubvmnc r2
      rmns := fun ha => hr.rmns.full (h.rmns ha) r1
      zmnc := fun ha => hr.zmnc.full (h.zmnc ha) r1
      lmnc := fun ha => hr.lmnc.full (h.lmnc ha) r1
      bmns := fun ha => hr.bmns.full (h.bmns ha) r2
      bsubumns := fun ha => hr.bsubumns.full (h.bsubumns ha) r2
      bsubvmns := fun ha => hr.bsubvmns.full (h.bsubvmns ha) r2
      surfs := by rw [hr.rest]; exact h.surfs
      surfs_range := by rw [surfs']; exact h.surfs_range
      fit_ntor := h.fit_ntor
      fit_mq := h.fit_mq
      fit_nq := h.fit_nq
      fit_mpol := h.fit_mpol
      fit_theta := h.fit_theta
      fit_zeta := h.fit_zeta
      fit_pts := h.fit_pts
      fit_nfp := h.fit_nfp }
  refine ⟨ready, ⟨fun k hk => ?_, fun k hk => ?_⟩, fun k₀ ho => ⟨?_, fun k hk => ?_⟩, fun j hj => ?_⟩
  · rw [fn.1] at hk
    rw [vn k hk]
    exact hp.1 _ (by rw [h.xn.1]; exact (r1 k).2 hk)
  · rw [gn.1] at hk
    rw [wn k hk]
    exact hp.2 _ (by rw [h.xn_nyq.1]; exact (r2 k).2 hk)
  · rw [gm.1, ← r2, Equiv.apply_symm_apply, ← h.xm_nyq.1]
    exact ho.1
  · rw [gm.1] at hk
    rw [wm k hk, wn k hk, ho.2 (ρ k) (by rw [h.xm_nyq.1]; exact (r2 k).2 hk)]
    exact ⟨fun e => by rw [← e, Equiv.symm_apply_apply], fun e => by rw [e, Equiv.apply_symm_apply]⟩
  · have oI : ∀ {x y : ℕ → ℝ} {K : ℕ}, (d.asym = true → ∀ k < K, x k = y k) → ∀ k < K,
        onlyIf d.asym (x k) = onlyIf d.asym (y k) := by
      intro x y K hxy k hk
      unfold onlyIf
      split
      · rename_i ha
        exact hxy ha k hk
      · rfl
    have e1 : I.xm.size = d.mnmax := h.xm.1
    have e1' : I'.xm.size = d.mnmax := fm.1
    have e2 : I.xm_nyq.size = d.mnq := h.xm_nyq.1
    have e2' : I'.xm_nyq.size = d.mnq := gm.1
    have P : ∀ {a a' : Mat ℝ}, PermRows π a a' → a.Full d.mnmax d.ns → ∀ k < d.mnmax, entry a' k j = entry a (π k) j :=
      fun hpr hfu k hk => hpr.val hfu r1 0 hk hj
    have Q : ∀ {a a' : Mat ℝ}, PermRows ρ a a' → a.Full d.mnq d.ns → ∀ k < d.mnq, entry a' k j = entry a (ρ k) j :=
      fun hpr hfu k hk => hpr.val hfu r2 0 hk hj
    refine ⟨by rw [iota'], ?_, ?_, ?_, ?_, ?_, ?_⟩
    · show series I.xm.size _ _ _ _ = series I'.xm.size _ _ _ _
      rw [e1, e1']
      exact series_perm r1 vm vn (P hr.rmnc h.rmnc) (oI fun ha => P hr.rmns (h.rmns ha))
    · show series I.xm.size _ _ _ _ = series I'.xm.size _ _ _ _
      rw [e1, e1']
      exact series_perm r1 vm vn (oI fun ha => P hr.zmnc (h.zmnc ha)) (P hr.zmns h.zmns)
    · show series I.xm.size _ _ _ _ = series I'.xm.size _ _ _ _
      rw [e1, e1']
      exact series_perm r1 vm vn (oI fun ha => P hr.lmnc (h.lmnc ha)) (P hr.lmns h.lmns)
    · show series I.xm_nyq.size _ _ _ _ = series I'.xm_nyq.size _ _ _ _
      rw [e2, e2']
      exact series_perm r2 wm wn (Q hr.bmnc h.bmnc) (oI fun ha => Q hr.bmns (h.bmns ha))
    · unfold bTheta
      rw [e2, e2']
      exact series_perm r2 wm wn (Q hr.bsubumnc h.bsubumnc) (oI fun ha => Q hr.bsubumns (h.bsubumns ha))
    · unfold bZeta
      rw [e2, e2']
      exact series_perm r2 wm wn (Q hr.bsubvmnc h.bsubvmnc) (oI fun ha => Q hr.bsubvmns (h.bsubvmns ha))

/-- **C83, another order of the modes.** Listing the modes in another order changes nothing but, if the Nyquist mode
(0,0) does not stay first, `Boozer_I_all` and `Boozer_G_all`. -/
theorem C83_reordered {s s' : St ℝ} {π ρ : Equiv.Perm ℕ} (h : RunReady s.inp d) (hp : FieldPeriodic s.inp d.nfp)
    (ho : OriginOnce s.inp) (hr : Reordered π ρ s.inp s'.inp) {dbg : Bool} (hdbg : dbg = true → ρ 0 = 0) :
    ∃ t r t' r', run dbg s = .ok (t, r) ∧ run dbg s' = .ok (t', r') ∧ SameSpectra d.asym t.out t'.out ∧ r = r' ∧
      (ρ 0 = 0 → t.out.boozer_I_all = t'.out.boozer_I_all ∧ t.out.boozer_G_all = t'.out.boozer_G_all) := by
  obtain ⟨h', hp', hO, hF⟩ := reordered h hp hr
  have o0 : OriginAt s.inp 0 := ⟨by rw [h.xm_nyq.1]; exact h.mnmax_nyq_ge, ho⟩
  have surfs' : s'.inp.compute_surfs = s.inp.compute_surfs := by rw [hr.rest]
  have sin' : s'.inp.s_in = s.inp.s_in := by rw [hr.rest]
  have sel : ∀ b, selected s.inp b = selected s'.inp b := fun b => by unfold selected; rw [surfs']
  have lt : ∀ b < d.nsb, selected s.inp b < d.ns := fun b hb => by
    have := h.surfs_range b hb
    unfold selected
    omega
  have z : ρ 0 = 0 → ρ.symm 0 = 0 := fun e => by rw [Equiv.symm_apply_eq, e]
  obtain ⟨t, r, t', r', h1, h2, h3, h4, h5⟩ := C83_partial (dbg := dbg) ⟨rfl, rfl, rfl, rfl, rfl⟩ h h' hp hp' o0
    (hO 0 o0) (fun e => ⟨rfl, z (hdbg e)⟩) (fun b _ => ⟨sel b, by rw [sin']⟩) fun b hb => hF _ (lt b hb)
  refine ⟨t, r, t', r', h1, h2, h3, h4 (by rw [hr.rest]), fun e => ?_⟩
  have := fun j hj => h5 rfl (z e) j hj hj (hF j hj)
  have f1 := (Prod.mk.inj (Except.ok.inj (h1.symm.trans (run_real h fun _ => originOnce_first h ho)))).1
  have f2 := (Prod.mk.inj (Except.ok.inj (h2.symm.trans (run_real h' fun e' => by
    have := hO 0 o0
    rw [z e] at this
    exact (this.2 0 this.1).2 rfl)))).1
  rw [f1, f2] at this ⊢
  constructor
  · refine Vec.tab_congr fun j hj => ?_
    have e := (this j hj).1
    change (Vec.tab d.ns _).rdN j = (Vec.tab d.ns _).rdN j at e
    rw [Vec.rdN_tab hj, Vec.rdN_tab hj] at e
    exact Except.ok.inj e
  · refine Vec.tab_congr fun j hj => ?_
    have e := (this j hj).2
    change (Vec.tab d.ns _).rdN j = (Vec.tab d.ns _).rdN j at e
    rw [Vec.rdN_tab hj, Vec.rdN_tab hj] at e
    exact Except.ok.inj e

/-- Inputs with the modes in another order. -/
def reorder (π ρ : Equiv.Perm ℕ) (I : Inputs ℝ) : Inputs ℝ :=
  let v := fun (π : Equiv.Perm ℕ) (x : Vec ℤ) => Vec.tab x.size fun k => x.val 0 (π k)
  let m := fun (π : Equiv.Perm ℕ) (a : Mat ℝ) => Mat.tab a.rows a.cols fun k j => a.val 0 (π k) j
  { I with
    xm := v π I.xm, xn := v π I.xn, xm_nyq := v ρ I.xm_nyq, xn_nyq := v ρ I.xn_nyq, rmnc := m π I.rmnc
    rmns := m π I.rmns, zmnc := m π I.zmnc, zmns := m π I.zmns, lmnc := m π I.lmnc, lmns := m π I.lmns
    bmnc := m ρ I.bmnc, bmns := m ρ I.bmns, bsubumnc := m ρ I.bsubumnc, bsubumns := m ρ I.bsubumns
    bsubvmnc := m ρ I.bsubvmnc, bsubvmns := m ρ I.bsubvmns }

theorem permVec_tab {π : Equiv.Perm ℕ} {v : Vec ℤ} {n : ℕ} (h : v.Full n) (hr : ∀ k, π k < n ↔ k < n) :
    PermVec π v (Vec.tab v.size fun k => v.val 0 (π k)) := by
  refine ⟨by simp [Vec.tab], fun k hk => ?_⟩
  rw [Vec.rdN_tab hk, h.rdN 0 ((hr k).2 (by rw [← h.1]; exact hk))]

theorem permRows_tab {π : Equiv.Perm ℕ} {a : Mat ℝ} {r c : ℕ} (h : a.Full r c) (hr : ∀ k, π k < r ↔ k < r) :
    PermRows π a (Mat.tab a.rows a.cols fun k j => a.val 0 (π k) j) := by
  refine ⟨rfl, rfl, ?_, fun k hk j hj => ?_⟩
  · rw [h.2.2.1, h.1, h.2.1]
    simp [Mat.tab, Vec.tab]
  · rw [Mat.rdN_tab hk hj, h.rdN 0 ((hr k).2 (by rw [← h.1]; exact hk)) (by rw [← h.2.1]; exact hj)]

theorem reorder_reordered {π ρ : Equiv.Perm ℕ} (h : RunReady I d) (ha : d.asym = true)
    (r1 : ∀ k, π k < d.mnmax ↔ k < d.mnmax) (r2 : ∀ k, ρ k < d.mnq ↔ k < d.mnq) :
    Reordered π ρ I (reorder π ρ I) where
  range := by rw [h.xm.1]; exact r1
  range_nyq := by rw [h.xm_nyq.1]; exact r2
  xm := permVec_tab h.xm r1
  xn := permVec_tab h.xn r1
  xm_nyq := permVec_tab h.xm_nyq r2
  xn_nyq := permVec_tab h.xn_nyq r2
  rmnc := permRows_tab h.rmnc r1
  rmns := permRows_tab (h.rmns ha) r1
  zmnc := permRows_tab (h.zmnc ha) r1
  zmns := permRows_tab h.zmns r1
  lmnc := permRows_tab (h.lmnc ha) r1
  lmns := permRows_tab h.lmns r1
  bmnc := permRows_tab h.bmnc r2
  bmns := permRows_tab (h.bmns ha) r2
  bsubumnc := permRows_tab h.bsubumnc r2
  bsubumns := permRows_tab (h.bsubumns ha) r2
  bsubvmnc := permRows_tab h.bsubvmnc r2
  bsubvmns := permRows_tab (h.bsubvmns ha) r2
  rest := rfl

theorem swap_lt {n : ℕ} (hn : 2 ≤ n) (k : ℕ) : Equiv.swap 0 1 k < n ↔ k < n := by
  rcases eq_or_ne k 0 with rfl | h0
  · rw [Equiv.swap_apply_left]
    omega
  · rcases eq_or_ne k 1 with rfl | h1
    · rw [Equiv.swap_apply_right]
      omega
    · rw [Equiv.swap_apply_of_ne_of_ne h0 h1]

/-- With an array of Nyquist modes of which the first is not (0,0), `init()` of a debug build aborts. -/
theorem initOutputs_abort {α : Type} [Arith α] {s : St α} (h : RunReady s.inp d) (hn : ¬ OriginFirst s.inp)
    (h1 : s.out.mnboz = some (d.nmodes : Int)) : ∃ w, initOutputs true s = .error (.assertFail w) := by
  have hmnq := h.mnmax_nyq_ge
  unfold initOutputs
  simp only [h.ns_in, h.asym, h1, need_some, ok_bind]
  have hsz : s.inp.compute_surfs.size = d.nsb := h.surfs.1
  rw [hsz]
  obtain ⟨w, hw, hws⟩ := Vec.resize_exists s.out.s_b d.nsb
  rw [hw, ok_bind]
  have hfill : loop d.nsb (fun j s_b => do
      let js ← s.inp.compute_surfs.rdN j
      let v ← s.inp.s_in.rd js
      Vec.wrN s_b j v) w = .ok (Vec.tab d.nsb fun j =>
        s.inp.s_in.val (ofInt 0) (s.inp.compute_surfs.val 0 j).toNat) := by
    have := fill_loop (g := fun j => do
        let js ← s.inp.compute_surfs.rdN j
        s.inp.s_in.rd js) hws
      (f := fun j => s.inp.s_in.val (ofInt 0) (s.inp.compute_surfs.val 0 j).toNat) (by
        intro i hi
        have hr := h.surfs_range i hi
        rw [h.surfs.rdN 0 hi, ok_bind, Vec.rd, if_pos hr.1]
        exact h.s_in.rdN (ofInt 0) (by omega))
    rw [← this]
    apply loop_congr
    intro i hi t
    rw [h.surfs.rdN 0 hi, ok_bind, ok_bind]
  rw [hfill, ok_bind, Vec.setZero_tab (by omega), ok_bind, ok_bind, Int.toNat_natCast,
    Vec.setZero_tab (by omega), ok_bind, ok_bind, Int.toNat_natCast]
  have hassert : ∃ w, assertOrigin true s.inp = .error (.assertFail w) := by
    unfold assertOrigin
    simp only [if_true]
    rw [h.xm_nyq.rdN 0 (by omega), ok_bind]
    by_cases o1 : s.inp.xm_nyq.val 0 0 = 0
    · have o2 : ¬ s.inp.xn_nyq.val 0 0 = 0 := fun o2 => hn ⟨o1, o2⟩
      refine ⟨"xn_nyq[0] == 0", ?_⟩
      rw [h.xn_nyq.rdN 0 (by omega)]
      simp [cassert, o1, o2]
    · refine ⟨"xm_nyq[0] == 0", ?_⟩
      simp [cassert, o1]
  obtain ⟨w, hw⟩ := hassert
  exact ⟨w, by rw [hw]; rfl⟩

/-- **C83, the debug build.** With complete inputs a debug build runs if the first Nyquist mode is (0,0), and aborts
in an assertion otherwise. -/
theorem C83_debug {s : St ℝ} (h : RunReady s.inp d) :
    ((∃ r, run true s = .ok r) ↔ OriginFirst s.inp) ∧
      (¬ OriginFirst s.inp → ∃ w, run true s = .error (.assertFail w)) := by
  have no : ¬ OriginFirst s.inp → ∃ w, run true s = .error (.assertFail w) := fun hn => by
    obtain ⟨w, hw⟩ := initOutputs_abort (s := tablesSt d (gridSt d s)) (d := d) h hn rfl
    refine ⟨w, ?_⟩
    unfold run init
    rw [printSurfs_ok h, ok_bind, initGrid_ok true h, ok_bind,
      initTables_ok (s := gridSt d s) (d := d) h rfl rfl rfl, ok_bind, hw]
    rfl
  refine ⟨⟨fun ⟨r, hr⟩ => ?_, fun ho => ⟨_, run_real h fun _ => ho⟩⟩, no⟩
  by_contra hn
  obtain ⟨w, hw⟩ := no hn
  rw [hw] at hr
  cases hr

/-- The example with the first two modes of both lists exchanged. -/
noncomputable def Ex.swapped : St ℝ :=
  { Ex.st true with inp := reorder (Equiv.swap 0 1) (Equiv.swap 0 1) (Ex.st true).inp }

theorem Ex.swapped_reordered :
    Reordered (Equiv.swap 0 1) (Equiv.swap 0 1) (Ex.st true).inp Ex.swapped.inp :=
  reorder_reordered (Ex.ready true) rfl (swap_lt (by decide)) (swap_lt (by decide))

/-- Every hypothesis of `C83_reordered` (and so of `C83_partial`) can be met, with an order that is another one. -/
example : RunReady (Ex.st (α := ℝ) true).inp (Ex.dims true) ∧
    FieldPeriodic (Ex.st (α := ℝ) true).inp (Ex.dims true).nfp ∧ OriginOnce (Ex.st (α := ℝ) true).inp ∧
    Reordered (Equiv.swap 0 1) (Equiv.swap 0 1) (Ex.st true).inp Ex.swapped.inp ∧
    Reordered (Equiv.swap 0 1) (Equiv.refl ℕ) (Ex.st (α := ℝ) true).inp
      (reorder (Equiv.swap 0 1) (Equiv.refl ℕ) (Ex.st true).inp) ∧
    (Equiv.refl ℕ) 0 = 0 :=
  ⟨Ex.ready true, Ex.fieldPeriodic true, Ex.originOnce true, Ex.swapped_reordered,
    reorder_reordered (Ex.ready true) rfl (swap_lt (by decide)) (fun _ => Iff.rfl), rfl⟩

/-- Both sides of `C83_debug` occur. -/
example : OriginFirst (Ex.st (α := ℝ) true).inp ∧ RunReady Ex.swapped.inp (Ex.dims true) ∧ ¬ OriginFirst Ex.swapped.inp := by
  refine ⟨Ex.originFirst true, (reordered (Ex.ready true) (Ex.fieldPeriodic true) Ex.swapped_reordered).1, fun o => ?_⟩
  have o2 : (Vec.tab 4 fun k => (Ex.vec [(0 : ℤ), 2, 0, -2]).val 0 (Equiv.swap 0 1 k)).val 0 0 = 0 := o.2
  rw [Vec.val_tab (by decide), Equiv.swap_apply_left] at o2
  exact absurd o2 (by decide)

/-- **C83, false of the code.** That the order of the modes has no effect on any output, in any build, is false:
`Boozer_I_all` is read off the first Nyquist mode, whatever mode that is, and a debug build aborts when it is not
(0,0), though `surface_solve` finds the (0,0) mode wherever it is. -/
theorem C83_false :
    ¬ (∀ (s s' : St ℝ) (d : Dims) (π ρ : Equiv.Perm ℕ) (dbg : Bool), RunReady s.inp d → FieldPeriodic s.inp d.nfp →
      OriginOnce s.inp → Reordered π ρ s.inp s'.inp →
      ∀ t r, run dbg s = .ok (t, r) → ∃ t' r', run dbg s' = .ok (t', r')) ∧
    ¬ (∀ (s s' : St ℝ) (d : Dims) (π ρ : Equiv.Perm ℕ), RunReady s.inp d → FieldPeriodic s.inp d.nfp →
      OriginOnce s.inp → Reordered π ρ s.inp s'.inp →
      ∀ t r t' r', run false s = .ok (t, r) → run false s' = .ok (t', r') →
        t.out.boozer_I_all = t'.out.boozer_I_all) := by
  obtain ⟨h', -, -, -⟩ := reordered (Ex.ready true) (Ex.fieldPeriodic true) Ex.swapped_reordered
  constructor
  · intro H
    obtain ⟨t', r', e⟩ := H (Ex.st true) Ex.swapped (Ex.dims true) _ _ true (Ex.ready true) (Ex.fieldPeriodic true)
      (Ex.originOnce true) Ex.swapped_reordered _ _
      (run_real (Ex.ready true) fun _ => originOnce_first (Ex.ready true) (Ex.originOnce true))
    have o : OriginFirst Ex.swapped.inp := (C83_debug h').1.1 ⟨_, e⟩
    have o2 : (Vec.tab 4 fun k => (Ex.vec [(0 : ℤ), 2, 0, -2]).val 0 (Equiv.swap 0 1 k)).val 0 0 = 0 := o.2
    rw [Vec.val_tab (by decide), Equiv.swap_apply_left] at o2
    exact absurd o2 (by decide)
  · intro H
    have e := H (Ex.st true) Ex.swapped (Ex.dims true) _ _ (Ex.ready true) (Ex.fieldPeriodic true)
      (Ex.originOnce true) Ex.swapped_reordered _ _ _ _ (run_real (Ex.ready true) fun h => by cases h)
      (run_real h' fun h => by cases h)
    have e := Vec.tab_inj e 0 (by decide)
    have e1 : (Mat.tab 4 2 fun (k j : ℕ) =>
        (ofInt (if k = 0 then 1 else if k = 1 then 0 else (k : Int) - 1 + j) : ℝ)).val (ofInt 0) 0 0 =
        (Mat.tab 4 2 fun k j => (Mat.tab 4 2 fun (k j : ℕ) =>
          (ofInt (if k = 0 then 1 else if k = 1 then 0 else (k : Int) - 1 + j) : ℝ)).val 0
            (Equiv.swap 0 1 k) j).val (ofInt 0) 0 0 := e
    rw [Mat.val_tab (by decide) (by decide), Mat.val_tab (by decide) (by decide), Equiv.swap_apply_left,
      Mat.val_tab (by decide) (by decide)] at e1
    simp at e1

/-- The example without its second Nyquist harmonic: the mode stays in the list with zero amplitude, as mode (0,`q`). -/
noncomputable def Ex.idle (q : ℤ) : St ℝ :=
  let z := fun a : Mat ℝ => Mat.tab 4 2 fun k j => if k = 1 then 0 else a.val 0 k j
  { Ex.st false with
    inp := { Ex.inputs false with
      xn_nyq := Ex.vec [0, q, 0, -2]
      bmnc := z (Ex.inputs false).bmnc, bsubumnc := z (Ex.inputs false).bsubumnc
      bsubvmnc := z (Ex.inputs false).bsubvmnc } }

theorem Ex.idle_ready {q : ℤ} (hq : q = 0 ∨ q = 2) : RunReady (Ex.idle q).inp (Ex.dims false) :=
  { Ex.ready (α := ℝ) false with
    xn_nyq := Ex.full_vec _
    xn_nyq_range := by
      rcases hq with rfl | rfl
      · exact (by decide : ∀ k, k < 4 → (Vec.val 0 (Ex.vec (β := Int) [0, 0, 0, -2]) k).natAbs / 2 ≤ 1)
      · exact (by decide : ∀ k, k < 4 → (Vec.val 0 (Ex.vec (β := Int) [0, 2, 0, -2]) k).natAbs / 2 ≤ 1)
    xn_nyq_int := by
      rcases hq with rfl | rfl
      · exact (by decide : ∀ k, k < 4 → (Vec.val 0 (Ex.vec (β := Int) [0, 0, 0, -2]) k).natAbs < 2147483648)
      · exact (by decide : ∀ k, k < 4 → (Vec.val 0 (Ex.vec (β := Int) [0, 2, 0, -2]) k).natAbs < 2147483648)
    bmnc := Mat.full_tab 4 2 _
    bsubumnc := Mat.full_tab 4 2 _
    bsubvmnc := Mat.full_tab 4 2 _
    bmns := fun h => by cases h
    bsubumns := fun h => by cases h
    bsubvmns := fun h => by cases h
    rmns := fun h => by cases h
    zmnc := fun h => by cases h
    lmnc := fun h => by cases h }

theorem Ex.idle_periodic {q : ℤ} (hq : q = 0 ∨ q = 2) : FieldPeriodic (Ex.idle q).inp 2 := by
  refine ⟨(Ex.fieldPeriodic false (α := ℝ)).1, ?_⟩
  rcases hq with rfl | rfl
  · exact (by decide : ∀ k, k < 4 → ((2 : Nat) : Int) ∣ Vec.val 0 (Ex.vec (β := Int) [0, 0, 0, -2]) k)
  · exact (by decide : ∀ k, k < 4 → ((2 : Nat) : Int) ∣ Vec.val 0 (Ex.vec (β := Int) [0, 2, 0, -2]) k)

theorem Ex.idle_same {j : ℕ} (hj : j < 2) : SameFunctions false (Ex.idle 2).inp (Ex.idle 0).inp j j := by
  have key : ∀ a : Mat ℝ, series 4 (fun k => Vec.val 0 (Ex.vec (β := Int) [0, 0, 1, 2]) k)
        (fun k => Vec.val 0 (Ex.vec (β := Int) [0, 2, 0, -2]) k)
        (entry (Mat.tab 4 2 fun k j => if k = 1 then 0 else a.val 0 k j) · j) (fun _ => 0) =
      series 4 (fun k => Vec.val 0 (Ex.vec (β := Int) [0, 0, 1, 2]) k)
        (fun k => Vec.val 0 (Ex.vec (β := Int) [0, 0, 0, -2]) k)
        (entry (Mat.tab 4 2 fun k j => if k = 1 then 0 else a.val 0 k j) · j) (fun _ => 0) := by
    intro a
    funext θ ζ
    unfold series
    refine Finset.sum_congr rfl fun k hk => ?_
    have hk := mem_range.1 hk
    by_cases h1 : k = 1
    · subst h1
      have e : entry (Mat.tab 4 2 fun k j => if k = 1 then 0 else a.val 0 k j) 1 j = 0 := by
        show Mat.val 0 (Mat.tab 4 2 fun k j => if k = 1 then 0 else a.val 0 k j) 1 j = 0
        rw [Mat.val_tab hk hj, if_pos rfl]
      simp only [e]
      ring
    · have e : Vec.val 0 (Ex.vec (β := Int) [0, 2, 0, -2]) k = Vec.val 0 (Ex.vec (β := Int) [0, 0, 0, -2]) k := by
        have : k = 0 ∨ k = 2 ∨ k = 3 := by omega
        rcases this with rfl | rfl | rfl <;> decide
      simp only [e]
  exact ⟨rfl, rfl, rfl, rfl, key _, key _, key _⟩

/-- **C83, a repeated (0,0) mode.** That the Nyquist mode (0,0) is listed once cannot be dropped from `C83_partial`,
not even with (0,0) first in both lists: `surface_solve.cpp:103-104` assigns the currents where it should add, so of
several (0,0) modes only the last counts, here one with zero amplitude. -/
theorem C83_repeated : ∃ s s' : St ℝ, ∃ d, RunReady s.inp d ∧ RunReady s'.inp d ∧ FieldPeriodic s.inp d.nfp ∧
    FieldPeriodic s'.inp d.nfp ∧ OriginFirst s.inp ∧ OriginFirst s'.inp ∧ OriginOnce s.inp ∧
    (∀ j < d.ns, SameFunctions d.asym s.inp s'.inp j j) ∧
    ∀ dbg, ∃ t r t' r', run dbg s = .ok (t, r) ∧ run dbg s' = .ok (t', r') ∧ t.out.boozer_I ≠ t'.out.boozer_I := by
  have h := Ex.idle_ready (Or.inr rfl)
  have h' := Ex.idle_ready (Or.inl rfl)
  have o : OriginFirst (Ex.idle 2).inp := ⟨rfl, rfl⟩
  have o' : OriginFirst (Ex.idle 0).inp := ⟨rfl, rfl⟩
  have oo : OriginOnce (Ex.idle 2).inp := Ex.originOnce (α := ℝ) false
  have o0 : OriginAt (Ex.idle 2).inp 0 := ⟨by decide, oo⟩
  refine ⟨Ex.idle 2, Ex.idle 0, Ex.dims false, h, h', Ex.idle_periodic (Or.inr rfl), Ex.idle_periodic (Or.inl rfl), o, o',
    oo, fun j hj => Ex.idle_same hj, fun dbg => ⟨_, _, _, _, run_real h fun _ => o, run_real h' fun _ => o', fun e => ?_⟩⟩
  have e := Vec.tab_inj (n := 2)
    (f := fun b => if b < 2 then curI (Ex.idle 2).inp (Ex.dims false) (surf (Ex.idle 2).inp b) else ofInt 0)
    (g := fun b => if b < 2 then curI (Ex.idle 0).inp (Ex.dims false) (surf (Ex.idle 0).inp b) else ofInt 0) e 0 (by decide)
  rw [if_pos (by decide), if_pos (by decide)] at e
  have e1 : curI (Ex.idle 2).inp (Ex.dims false) 1 = 1 := by
    refine (lastZero_at o0 _ _ (by decide) (by decide)).trans ?_
    show Mat.val (ofInt 0) (Mat.tab 4 2 fun k j => if k = 1 then (0 : ℝ) else (Ex.inputs false).bsubumnc.val 0 k j) 0 1 = 1
    rw [Mat.val_tab (by decide) (by decide), if_neg (by decide)]
    show Mat.val 0 (Mat.tab 4 2 fun (k j : ℕ) =>
        (ofInt (if k = 0 then 1 else if k = 1 then 0 else (k : Int) - 1 + j) : ℝ)) 0 1 = 1
    rw [Mat.val_tab (by decide) (by decide)]
    simp
  have e2 : curI (Ex.idle 0).inp (Ex.dims false) 1 = 0 := by
    have step : curI (Ex.idle 0).inp (Ex.dims false) 1 = ev (Ex.idle 0).inp.bsubumnc 1 1 := rfl
    rw [step]
    show Mat.val (ofInt 0) (Mat.tab 4 2 fun k j => if k = 1 then (0 : ℝ) else (Ex.inputs false).bsubumnc.val 0 k j) 1 1 = 0
    rw [Mat.val_tab (by decide) (by decide), if_pos rfl]
  have e3 : curI (Ex.idle 2).inp (Ex.dims false) 1 = curI (Ex.idle 0).inp (Ex.dims false) 1 := e
  rw [e1, e2] at e3
  exact one_ne_zero e3

end Booz
