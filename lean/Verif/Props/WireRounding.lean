import Verif.Spec.WireRounding
import Verif.Props.FigureRounding

/-!
# What `wireplot` shows of the equilibrium on a machine (C111)
-/

namespace Booz
open Spec Plots Finset

/-! ## The lines drawn, over any numbers -/

section
variable {α : Type} [Arith α]

/-- The angle of `plots.py:412`. -/
def drawnAngle (b : St α) (θ φ : α) (k : ℕ) : α := ofInt (outM b k) * θ - ofInt (outN b k) * φ

/-- The sum for R of `plots.py:409-423` at one point of the grid, in the order of the code. -/
def drawnR (b : St α) (K : ℕ) (asym : Bool) (c : ℕ) (θ φ : α) : α :=
  acc2 asym (fun k => b.out.spec.rmnc_b.val (ofInt 0) k c * Arith.cos (drawnAngle b θ φ k))
    (fun k => b.out.spec.rmns_b.val (ofInt 0) k c * Arith.sin (drawnAngle b θ φ k)) K

/-- The sum for Z of `plots.py:409-423`. -/
def drawnZ (b : St α) (K : ℕ) (asym : Bool) (c : ℕ) (θ φ : α) : α :=
  acc2 asym (fun k => b.out.spec.zmns_b.val (ofInt 0) k c * Arith.sin (drawnAngle b θ φ k))
    (fun k => b.out.spec.zmnc_b.val (ofInt 0) k c * Arith.cos (drawnAngle b θ φ k)) K

/-- The sum for ν of `plots.py:409-423`. -/
def drawnNu (b : St α) (K : ℕ) (asym : Bool) (c : ℕ) (θ φ : α) : α :=
  acc2 asym (fun k => b.out.spec.numns_b.val (ofInt 0) k c * Arith.sin (drawnAngle b θ φ k))
    (fun k => b.out.spec.numnc_b.val (ofInt 0) k c * Arith.cos (drawnAngle b θ φ k)) K

/-- All five sums of `plots.py:409-423`. -/
def drawnSums (b : St α) (K : ℕ) (asym : Bool) (c : ℕ) (th ph : ℕ → α) : WireSums α where
  R := fun i j => drawnR b K asym c (th i) (ph j)
  Z := fun i j => drawnZ b K asym c (th i) (ph j)
  dR := fun i j => acc2 false (fun k => ofInt (-outM b k) * b.out.spec.rmnc_b.val (ofInt 0) k c *
    Arith.sin (drawnAngle b (th i) (ph j) k)) (fun _ => ofInt 0) K
  dZ := fun i j => acc2 false (fun k => ofInt (outM b k) * b.out.spec.zmns_b.val (ofInt 0) k c *
    Arith.cos (drawnAngle b (th i) (ph j) k)) (fun _ => ofInt 0) K
  nu := fun i j => drawnNu b K asym c (th i) (ph j)

theorem wireSums_any {b : St α} {K nb nfp : ℕ} {asym : Bool} (h : Computed b K nb nfp asym) {js : Int} {c : ℕ}
    (hc : IsColumn nb js c) (th ph : ℕ → α) :
    loop K (wireStep b js th ph) ⟨fun _ _ => ofInt 0, fun _ _ => ofInt 0, fun _ _ => ofInt 0, fun _ _ => ofInt 0,
      fun _ _ => ofInt 0⟩ = .ok (drawnSums b K asym c th ph) := by
  refine loop_traj' (fun k => drawnSums b k asym c th ph) (fun k hk => ?_) rfl rfl
  unfold wireStep
  rw [at1_full 0 h.xm_b hk, at1_full 0 h.xn_b hk, at2_full (ofInt 0) h.rmnc_b hk hc, at2_full (ofInt 0) h.zmns_b hk hc,
    at2_full (ofInt 0) h.numns_b hk hc, h.asym_eq]
  cases asym with
  | false => rfl
  | true =>
    show (at2 b.out.spec.rmns_b (k : Int) js >>= fun s => at2 b.out.spec.zmnc_b (k : Int) js >>= fun t =>
      at2 b.out.spec.numnc_b (k : Int) js >>= fun u => _) = _
    rw [at2_full (ofInt 0) (h.asym_b rfl).2.1 hk hc, at2_full (ofInt 0) (h.asym_b rfl).2.2.1 hk hc,
      at2_full (ofInt 0) (h.asym_b rfl).2.2.2 hk hc]
    rfl

/-- A point of `plots.py:428-430`. -/
def drawnPoint (b : St α) (K : ℕ) (asym : Bool) (c : ℕ) (θ φ : α) : α × α × α :=
  (drawnR b K asym c θ φ * Arith.cos (φ - drawnNu b K asym c θ φ),
    drawnR b K asym c θ φ * Arith.sin (φ - drawnNu b K asym c θ φ), drawnZ b K asym c θ φ)

/-- The grid of `plots.py:395-396`. -/
def drawnGrid (n : ℕ) (i : ℕ) : α := linspaceAt twopi ((n : Int) + 1) i

theorem wires_any {nt np r : ℕ} (hr : 2 ≤ r) (boozer : Bool) (P : ℕ → ℕ → α × α × α) :
    wires boozer (r : Int) (nt * r + 1) (np * r + 1) (fun i j => (P i j).1) (fun i j => (P i j).2.1) (fun i j => (P i j).2.2) =
      machineLines boozer nt np r (fun i k => P (i * r) k) fun j k => P k (j * r) := by
  unfold wires machineLines
  simp only [npMod_one hr]
  rw [select (by omega), select (by omega)]
  congr 1
  refine List.map_congr_left fun p _ => ?_
  have hd : decide (p * r + 1 ≤ 1) = decide (p = 0) := by
    apply decide_eq_decide.2
    constructor
    · intro h0
      have : p * r = 0 := by omega
      rcases Nat.mul_eq_zero.1 this with h1 | h1 <;> omega
    · rintro rfl; simp
  rw [hd]
  rfl

/-- The angle of `plots.py:486`. -/
def origAngle (I : Inputs α) (θ φ : α) (k : ℕ) : α := ofInt (I.xm.val 0 k) * θ - ofInt (I.xn.val 0 k) * φ

/-- The sum for R of `plots.py:485-493` at one point of the grid, in the order of the code. -/
def origR (I : Inputs α) (K : ℕ) (asym : Bool) (js : ℕ) (θ φ : α) : α :=
  acc2 asym (fun k => I.rmnc.val (ofInt 0) k js * Arith.cos (origAngle I θ φ k))
    (fun k => I.rmns.val (ofInt 0) k js * Arith.sin (origAngle I θ φ k)) K

/-- The sum for Z of `plots.py:485-493`. -/
def origZ (I : Inputs α) (K : ℕ) (asym : Bool) (js : ℕ) (θ φ : α) : α :=
  acc2 asym (fun k => I.zmns.val (ofInt 0) k js * Arith.sin (origAngle I θ φ k))
    (fun k => I.zmnc.val (ofInt 0) k js * Arith.cos (origAngle I θ φ k)) K

/-- A point of `plots.py:495-496`. -/
def origPoint (I : Inputs α) (K : ℕ) (asym : Bool) (js : ℕ) (θ φ : α) : α × α × α :=
  (origR I K asym js θ φ * Arith.cos φ, origR I K asym js θ φ * Arith.sin φ, origZ I K asym js θ φ)

theorem origSums_any {b : St α} {d : Dims} (h : RunReady b.inp d) {js : ℕ} (hj : js < d.ns) (th ph : ℕ → α) :
    loop d.mnmax (origStep b (js : Int) th ph) (fun _ _ => ofInt 0, fun _ _ => ofInt 0) =
      .ok (fun i j => origR b.inp d.mnmax d.asym js (th i) (ph j), fun i j => origZ b.inp d.mnmax d.asym js (th i) (ph j)) := by
  have hcol : IsColumn d.ns (js : Int) js := ⟨hj, .inl rfl⟩
  have ha := h.asym
  have h1 := h.rmns
  have h2 := h.zmnc
  generalize d.asym = asym at ha h1 h2 ⊢
  refine loop_traj' (fun k => (fun i j => origR b.inp k asym js (th i) (ph j), fun i j => origZ b.inp k asym js (th i) (ph j)))
    (fun k hk => ?_) rfl rfl
  unfold origStep
  rw [at1_full 0 h.xm hk, at1_full 0 h.xn hk, at2_full (ofInt 0) h.rmnc hk hcol, at2_full (ofInt 0) h.zmns hk hcol, ha]
  cases asym with
  | false => rfl
  | true =>
    show (at2 b.inp.rmns (k : Int) js >>= fun s => at2 b.inp.zmnc (k : Int) js >>= fun t => _) = _
    rw [at2_full (ofInt 0) (h1 rfl) hk hcol, at2_full (ofInt 0) (h2 rfl) hk hcol]
    rfl

theorem wireplot_any {b : St α} {K nb nfp : ℕ} {d : Dims} (h : Computed b K nb nfp d.asym) (a : WireArgs) {c nt np r : ℕ}
    (hc : Requested nb a.js c) (ht : a.ntheta = nt) (hp : a.nphi = np) (hr : a.refine = r) (hr2 : 2 ≤ r)
    (hi : RunReady b.inp d) (hnb : nb = d.nsb) :
    ∃ first : List (Drawn α), (∀ disk fig, wireplot disk (.object b) a fig = .ok (first ++
        machineLines true nt np r
          (fun i k => drawnPoint b K d.asym c (drawnGrid (nt * r) (i * r)) (drawnGrid (np * r) k))
          (fun j k => drawnPoint b K d.asym c (drawnGrid (nt * r) k) (drawnGrid (np * r) (j * r))) ++
        if a.orig then machineLines false nt np r
          (fun i k => origPoint b.inp d.mnmax d.asym (selected b.inp c) (drawnGrid (nt * r) (i * r)) (drawnGrid (np * r) k))
          (fun j k => origPoint b.inp d.mnmax d.asym (selected b.inp c) (drawnGrid (nt * r) k) (drawnGrid (np * r) (j * r)))
        else []) fig) ∧
      (a.surf = false → first = []) ∧ (a.surf = true → ∃ X Y Z, first = [.surface X Y Z]) := by
  obtain ⟨js, hcol, hjs⟩ : ∃ js : Int, IsColumn nb js c ∧ wireJs b a = .ok js := by
    unfold Requested at hc
    unfold wireJs
    cases hj : a.js with
    | some js =>
      rw [hj] at hc
      exact ⟨js, hc, rfl⟩
    | none =>
      rw [hj] at hc
      refine ⟨(nb : Int) - 1, ⟨by omega, .inl (by omega)⟩, ?_⟩
      rw [h.ns_b]
      rfl
  have et : a.ntheta * a.refine + 1 = ((nt * r : ℕ) : Int) + 1 := by rw [ht, hr]; push_cast; rfl
  have ep : a.nphi * a.refine + 1 = ((np * r : ℕ) : Int) + 1 := by rw [hp, hr]; push_cast; rfl
  have lin : ∀ n : ℕ, linspace (twopi : α) ((n : Int) + 1) = .ok (drawnGrid n) := by
    intro n
    unfold linspace
    rw [if_neg (by omega)]
    rfl
  have hw := wireSums_any h hcol (drawnGrid (nt * r)) (drawnGrid (np * r))
  let w := drawnSums b K d.asym c (drawnGrid (nt * r)) (drawnGrid (np * r))
  refine ⟨if a.surf then [solid (nt * r + 1) (np * r + 1) w fun i j => drawnGrid (np * r) j - w.nu i j] else [],
    fun disk fig => ?_, fun hs => if_neg (by simp [hs]), fun hs => ⟨_, _, _, if_pos hs⟩⟩
  rw [← wires_any hr2 true fun i j => drawnPoint b K d.asym c (drawnGrid (nt * r) i) (drawnGrid (np * r) j),
    ← wires_any hr2 false fun i j => origPoint b.inp d.mnmax d.asym (selected b.inp c) (drawnGrid (nt * r) i)
      (drawnGrid (np * r) j)]
  show Prog.lift (wireplotObj b a) fig = _
  have hrange := hi.surfs_range c (hnb ▸ hcol.1)
  have hsel : ((selected b.inp c : ℕ) : Int) = b.inp.compute_surfs.val 0 c := by
    unfold selected
    exact Int.toNat_of_nonneg hrange.1
  have eo : origPart b a js (drawnGrid (nt * r)) (drawnGrid (np * r)) = .ok (wires false r (nt * r + 1) (np * r + 1)
      (fun i j => (origPoint b.inp d.mnmax d.asym (selected b.inp c) (drawnGrid (nt * r) i) (drawnGrid (np * r) j)).1)
      (fun i j => (origPoint b.inp d.mnmax d.asym (selected b.inp c) (drawnGrid (nt * r) i) (drawnGrid (np * r) j)).2.1)
      (fun i j => (origPoint b.inp d.mnmax d.asym (selected b.inp c) (drawnGrid (nt * r) i) (drawnGrid (np * r) j)).2.2)) := by
    unfold origPart
    rw [at1_col 0 hi.surfs (hnb ▸ hcol), hi.mnmax, ← hsel]
    show (loop (d.mnmax : Int).toNat _ _ >>= fun w => _) = _
    rw [Int.toNat_natCast, origSums_any hi (by omega)]
    show Except.ok (wires false a.refine _ _ _ _ _) = _
    rw [et, ep, hr]
    rfl
  have e : wireplotObj b a = .ok ((if a.surf then
      [solid (nt * r + 1) (np * r + 1) w fun i j => drawnGrid (np * r) j - w.nu i j] else []) ++
      wires true r (nt * r + 1) (np * r + 1) (fun i j => w.R i j * Arith.cos (drawnGrid (np * r) j - w.nu i j))
        (fun i j => w.R i j * Arith.sin (drawnGrid (np * r) j - w.nu i j)) w.Z ++
      if a.orig then wires false r (nt * r + 1) (np * r + 1)
        (fun i j => (origPoint b.inp d.mnmax d.asym (selected b.inp c) (drawnGrid (nt * r) i) (drawnGrid (np * r) j)).1)
        (fun i j => (origPoint b.inp d.mnmax d.asym (selected b.inp c) (drawnGrid (nt * r) i) (drawnGrid (np * r) j)).2.1)
        (fun i j => (origPoint b.inp d.mnmax d.asym (selected b.inp c) (drawnGrid (nt * r) i) (drawnGrid (np * r) j)).2.2)
      else []) := by
    unfold wireplotObj
    rw [et, ep, lin, lin, hjs, h.mnboz]
    show (loop (K : Int).toNat (wireStep b js (drawnGrid (nt * r)) (drawnGrid (np * r))) _ >>= fun w => _) = _
    rw [Int.toNat_natCast, hw, hr]
    cases a.orig with
    | false =>
      exact congrArg Except.ok (List.append_nil _).symm
    | true =>
      show (origPart b a js (drawnGrid (nt * r)) (drawnGrid (np * r)) >>= fun more => _) = _
      rw [eo]
      rfl
  rw [e]
  rfl

end

theorem origPoint_real {s : St ℝ} {d : Dims} (h : RunReady s.inp d) {js : ℕ} (hj : js < d.ns) (θ φ : ℝ) :
    origPoint s.inp d.mnmax d.asym js θ φ = inputPoint s.inp d.asym js θ φ := by
  have e := origSums_any h hj (fun _ => θ) (fun _ => φ)
  rw [orig_ok (b := s) (nb' := d.nsb) rfl (run_original (s := s) h) h.asym hj] at e
  injection e with e
  have e1 : origR s.inp d.mnmax d.asym js θ φ = (surface s.inp d.asym js).R θ φ :=
    (congrArg (fun w : (ℕ → ℕ → ℝ) × (ℕ → ℕ → ℝ) => w.1 0 0) e).symm
  have e2 : origZ s.inp d.mnmax d.asym js θ φ = (surface s.inp d.asym js).Z θ φ :=
    (congrArg (fun w : (ℕ → ℕ → ℝ) × (ℕ → ℕ → ℝ) => w.2 0 0) e).symm
  unfold origPoint inputPoint
  rw [e1, e2]
  rfl

theorem drawnPoint_real {b : St ℝ} {K nb nfp : ℕ} {asym : Bool} (h : Computed b K nb nfp asym) {c : ℕ} (hc : c < nb)
    (θ φ : ℝ) : drawnPoint b K asym c θ φ = boozerPoint b K asym c θ φ := by
  have hcol : IsColumn nb (c : Int) c := ⟨hc, .inl rfl⟩
  have e := wireSums_any h hcol (fun _ => θ) (fun _ => φ)
  rw [wire_ok h hcol] at e
  injection e with e
  have e1 : drawnR b K asym c θ φ = seriesR b K asym c θ φ := (congrArg (fun w : WireSums ℝ => w.R 0 0) e).symm
  have e2 : drawnZ b K asym c θ φ = seriesZ b K asym c θ φ := (congrArg (fun w : WireSums ℝ => w.Z 0 0) e).symm
  have e3 : drawnNu b K asym c θ φ = seriesNu b K asym c θ φ := (congrArg (fun w : WireSums ℝ => w.nu 0 0) e).symm
  unfold drawnPoint boozerPoint
  rw [e1, e2, e3]
  rfl

/-! ## Rounding -/

section
variable {b₀ : St ℝ} {d : Dims} {A : ℝ}

theorem stable_point {c : ℕ} (hc : c < d.nsb) {θ φ : ∀ M : MachOut b₀ d A, M.α} {t z : ℝ}
    (hθ : Stable (π := MachOut.toMachine) θ t) (hφ : Stable (π := MachOut.toMachine) φ z) :
    Stable (π := MachOut.toMachine) (fun M => (drawnPoint M.b d.nmodes d.asym c (θ M) (φ M)).1)
        (drawnPoint b₀ d.nmodes d.asym c t z).1 ∧
      Stable (π := MachOut.toMachine) (fun M => (drawnPoint M.b d.nmodes d.asym c (θ M) (φ M)).2.1)
        (drawnPoint b₀ d.nmodes d.asym c t z).2.1 ∧
      Stable (π := MachOut.toMachine) (fun M => (drawnPoint M.b d.nmodes d.asym c (θ M) (φ M)).2.2)
        (drawnPoint b₀ d.nmodes d.asym c t z).2.2 := by
  have ang : ∀ k, Stable (π := MachOut.toMachine) (fun M : MachOut b₀ d A => drawnAngle M.b (θ M) (φ M) k)
      (drawnAngle b₀ t z k) := by
    intro k
    have e1 : ∀ M : MachOut b₀ d A, outM M.b k = outM b₀ k := fun M => by unfold outM; rw [M.near.xm_b]
    have e2 : ∀ M : MachOut b₀ d A, outN M.b k = outN b₀ k := fun M => by unfold outN; rw [M.near.xn_b]
    unfold drawnAngle
    simp only [e1, e2]
    exact ((Stable.int _).mul hθ).sub ((Stable.int _).mul hφ)
  have entryS : ∀ (f : ∀ {α : Type}, Spectra α → Mat α), (∀ M : MachOut b₀ d A,
      MatNear M.fin M.val d.nmodes d.nsb (A * M.u) (f M.b.out.spec) (f b₀.out.spec)) → ∀ k < d.nmodes,
      Stable (π := MachOut.toMachine) (fun M : MachOut b₀ d A => (f M.b.out.spec).val (ofInt 0) k c)
        ((f b₀.out.spec).val (ofInt 0) k c) := by
    intro f hf k hk
    refine Stable.of_near (abs_nonneg A) fun M => ?_
    obtain ⟨x, y, h1, h2, h3, h4⟩ := hf M k hk c hc
    rw [Mat.val_of_rdN _ h1, Mat.val_of_rdN _ h2]
    exact ⟨h3, h4.trans (mul_le_mul_of_nonneg_right (le_abs_self A) M.ok.u_pos.le)⟩
  have sR : Stable (π := MachOut.toMachine) (fun M => drawnR M.b d.nmodes d.asym c (θ M) (φ M))
      (drawnR b₀ d.nmodes d.asym c t z) :=
    Stable.acc2 _ (fun k hk => (entryS (fun s => s.rmnc_b) (fun M => M.near.rmnc) k hk).mul (ang k).cos)
      fun ha k hk => (entryS (fun s => s.rmns_b) (fun M => M.near.rmns ha) k hk).mul (ang k).sin
  have sZ : Stable (π := MachOut.toMachine) (fun M => drawnZ M.b d.nmodes d.asym c (θ M) (φ M))
      (drawnZ b₀ d.nmodes d.asym c t z) :=
    Stable.acc2 _ (fun k hk => (entryS (fun s => s.zmns_b) (fun M => M.near.zmns) k hk).mul (ang k).sin)
      fun ha k hk => (entryS (fun s => s.zmnc_b) (fun M => M.near.zmnc ha) k hk).mul (ang k).cos
  have sN : Stable (π := MachOut.toMachine) (fun M => drawnNu M.b d.nmodes d.asym c (θ M) (φ M))
      (drawnNu b₀ d.nmodes d.asym c t z) :=
    Stable.acc2 _ (fun k hk => (entryS (fun s => s.numns_b) (fun M => M.near.numns) k hk).mul (ang k).sin)
      fun ha k hk => (entryS (fun s => s.numnc_b) (fun M => M.near.numnc ha) k hk).mul (ang k).cos
  exact ⟨sR.mul (hφ.sub sN).cos, sR.mul (hφ.sub sN).sin, sZ⟩

end

section
variable {J : Inputs ℝ} {d : Dims} {K : ℝ}

theorem stable_orig {js : ℕ} (hj : js < d.ns) {θ φ : ∀ M : Mach J d K, M.α} {t z : ℝ}
    (hθ : Stable (π := Mach.toMachine) θ t) (hφ : Stable (π := Mach.toMachine) φ z) :
    Stable (π := Mach.toMachine) (fun M => (origPoint M.I d.mnmax d.asym js (θ M) (φ M)).1)
        (origPoint J d.mnmax d.asym js t z).1 ∧
      Stable (π := Mach.toMachine) (fun M => (origPoint M.I d.mnmax d.asym js (θ M) (φ M)).2.1)
        (origPoint J d.mnmax d.asym js t z).2.1 ∧
      Stable (π := Mach.toMachine) (fun M => (origPoint M.I d.mnmax d.asym js (θ M) (φ M)).2.2)
        (origPoint J d.mnmax d.asym js t z).2.2 := by
  have ang : ∀ k, Stable (π := Mach.toMachine) (fun M : Mach J d K => origAngle M.I (θ M) (φ M) k) (origAngle J t z k) := by
    intro k
    have e1 : ∀ M : Mach J d K, M.I.xm = J.xm := fun M => M.near.xm
    have e2 : ∀ M : Mach J d K, M.I.xn = J.xn := fun M => M.near.xn
    unfold origAngle
    simp only [e1, e2]
    exact ((Stable.int _).mul hθ).sub ((Stable.int _).mul hφ)
  have entryS : ∀ (f : ∀ {α : Type}, Inputs α → Mat α), (∀ M : Mach J d K,
      MatNear M.fin M.val d.mnmax d.ns (K * M.u) (f M.I) (f J)) → ∀ k < d.mnmax,
      Stable (π := Mach.toMachine) (fun M : Mach J d K => (f M.I).val (ofInt 0) k js) ((f J).val (ofInt 0) k js) := by
    intro f hf k hk
    refine Stable.of_near (abs_nonneg K) fun M => ?_
    obtain ⟨x, y, h1, h2, h3, h4⟩ := hf M k hk js hj
    rw [Mat.val_of_rdN _ h1, Mat.val_of_rdN _ h2]
    exact ⟨h3, h4.trans (mul_le_mul_of_nonneg_right (le_abs_self K) M.ok.u_pos.le)⟩
  have sR : Stable (π := Mach.toMachine) (fun M : Mach J d K => origR M.I d.mnmax d.asym js (θ M) (φ M))
      (origR J d.mnmax d.asym js t z) :=
    Stable.acc2 _ (fun k hk => (entryS (fun s => s.rmnc) (fun M => M.near.rmnc) k hk).mul (ang k).cos)
      fun ha k hk => (entryS (fun s => s.rmns) (fun M => M.near.rmns ha) k hk).mul (ang k).sin
  have sZ : Stable (π := Mach.toMachine) (fun M : Mach J d K => origZ M.I d.mnmax d.asym js (θ M) (φ M))
      (origZ J d.mnmax d.asym js t z) :=
    Stable.acc2 _ (fun k hk => (entryS (fun s => s.zmns) (fun M => M.near.zmns) k hk).mul (ang k).sin)
      fun ha k hk => (entryS (fun s => s.zmnc) (fun M => M.near.zmnc ha) k hk).mul (ang k).cos
  exact ⟨sR.mul hφ.cos, sR.mul hφ.sin, sZ⟩

end

/-- **C111, on a machine: `wireplot`.**  Let the real data be regular on the selected surfaces, and the Boozer angles be
coordinates of them.  For any order `p` there is a constant `C`, and for each resolution (M, N) with `M ≤ c N`, `N ≤ c M` and
each number of lines and points (at least two per segment) a constant `D` and a precision `u₀`, such that every machine of
precision `u ≤ u₀`, given the data rounded to within `K u`, after `run` returns from `wireplot`, for each surface resolved by the
grid, lines whose points have finite coordinates and are within `C / M^p + D u` of the points of the input surface with the
corresponding Boozer angles, and if requested lines of the original angles with points within `D u` of the true ones. -/
theorem C111_machine_wires {s₀ : St ℝ} {d : Dims} (h : RunReady s₀.inp d) (hp : FieldPeriodic s₀.inp d.nfp)
    (ho : OriginOnce s₀.inp) (hreg : ∀ b < d.nsb, (surface s₀.inp d.asym (selected s₀.inp b)).Regular)
    (hdet : ∀ b < d.nsb, ∀ θ ζ, (surface s₀.inp d.asym (selected s₀.inp b)).det θ ζ ≠ 0)
    {c : ℝ} (hc : 0 ≤ c) {ρ : ℝ} (hρ : ρ < 1) (p : ℕ) :
    ∃ C, 0 ≤ C ∧ ∀ M N : ℕ, 1 ≤ N → (M : ℝ) ≤ c * N → (N : ℝ) ≤ c * M →
      RunReady { s₀.inp with mboz := M, nboz := N } { d with M := M, N := N } →
      ∀ K : ℝ, 0 ≤ K → ∀ nt np q : ℕ, 1 ≤ nt → 1 ≤ np → 2 ≤ q → ∃ D u₀, 0 ≤ D ∧ 0 < u₀ ∧
        ∀ (α : Type) [Arith α] (fin : α → Prop) (val : α → ℝ) (u : ℝ), Precision α fin val u → u ≤ u₀ →
        ∀ s : St α, RunReady s.inp { d with M := M, N := N } →
          InputsNear fin val { d with M := M, N := N } (K * u) s.inp s₀.inp →
          ∃ s' r, run false s = .ok (s', r) ∧ ∀ b < d.nsb, let S := surface s₀.inp d.asym (selected s₀.inp b)
            S.ResolvedBy d.nfp M N ρ → ∀ disk,
            ShowsWiresNear fin val (wireplot disk (.object s')) S (inputPoint s₀.inp d.asym (selected s₀.inp b)) d.nsb b
              nt np q True (D * u) (C * (1 / (M : ℝ)) ^ p + D * u) := by
  have rate : ∀ b, ∃ C : ℝ, 0 ≤ C ∧ (b < d.nsb → let S := surface s₀.inp d.asym (selected s₀.inp b)
      ∀ (M N : ℕ) (s1 : St ℝ), 1 ≤ N → (M : ℝ) ≤ c * N → (N : ℝ) ≤ c * M →
        s1.inp = { s₀.inp with mboz := M, nboz := N } → RunReady s1.inp { d with M := M, N := N } →
        S.ResolvedBy d.nfp M N ρ → ∃ s' r, run false s1 = .ok (s', r) ∧ ∀ θ ζ,
          dist (boozerPoint s' (numModes M N) d.asym b (S.thetaB θ ζ) (S.zetaB θ ζ))
            (inputPoint s₀.inp d.asym (selected s₀.inp b) θ ζ) ≤ C * (1 / (M : ℝ)) ^ p) := by
    intro b
    by_cases hb : b < d.nsb
    · obtain ⟨C, hC, -, h2⟩ := C109_positions h hp ho hb (hreg b hb) (hdet b hb) hc hρ p
      refine ⟨C, hC, fun _ => ?_⟩
      intro S M N s1 hN hMN hNM e1 h1 hres
      obtain ⟨s', r, er, k1, -⟩ := h2 M N s1 false hN hMN hNM e1 h1 hres
      exact ⟨s', r, er, k1⟩
    · exact ⟨0, le_rfl, fun k => absurd k hb⟩
  choose C hC hr using rate
  refine ⟨∑ b ∈ Finset.range d.nsb, C b, sum_nonneg fun b _ => hC b, fun M N hN hMN hNM h1 K hK nt np q ht hq hq2 => ?_⟩
  let s₁ : St ℝ := { s₀ with inp := { s₀.inp with mboz := M, nboz := N } }
  let e : Dims := { d with M := M, N := N }
  obtain ⟨A, u₀, h0, G⟩ := C69_rounding (s₀ := s₁) (d := e) h1 hp ho hreg hK
  let b₀ : St ℝ := runSt e s₁ d.nsb
  have hnt : 1 ≤ nt * q := Nat.mul_pos ht (by omega)
  have hnp : 1 ≤ np * q := Nat.mul_pos hq (by omega)
  have two : Stable (π := MachOut.toMachine) (fun M : MachOut b₀ e A => (twopi : M.α)) (twopi : ℝ) :=
    (Stable.int 2).mul Stable.pi
  have sG : ∀ n, 1 ≤ n → ∀ i, Stable (π := MachOut.toMachine) (fun M : MachOut b₀ e A => (drawnGrid n i : M.α))
      (drawnGrid n i) := fun n hn i => stable_linspace two n hn i
  have lin : ∀ {X : ∀ M : MachOut b₀ e A, M.α} {r : ℝ}, Stable (π := MachOut.toMachine) X r →
      Linear MachOut.toMachine (fun M δ => M.fin (X M) ∧ |M.val (X M) - r| ≤ δ) ∧
        Grows (fun (M : MachOut b₀ e A) δ => M.fin (X M) ∧ |M.val (X M) - r| ≤ δ) :=
    fun h => ⟨h, fun M δ δ' hd hh => ⟨hh.1, hh.2.trans hd⟩⟩
  have sP := fun (b : ℕ) (hb : b < d.nsb) (i j : ℕ) =>
    stable_point (b₀ := b₀) (d := e) (A := A) hb (sG (nt * q) hnt i) (sG (np * q) hnp j)
  obtain ⟨⟨D, v₀, hD, hv, L⟩, -⟩ := Linear.all d.nsb fun b hb => Linear.all (nt * q + 1) fun i _ =>
    Linear.all (np * q + 1) fun j _ =>
      Linear.and (lin (sP b hb i j).1) (Linear.and (lin (sP b hb i j).2.1) (lin (sP b hb i j).2.2))
  -- the original lines
  have hsel : ∀ b < d.nsb, selected s₀.inp b < d.ns := fun b hb => by
    have := h.surfs_range b hb
    unfold selected
    omega
  have two' : Stable (π := Mach.toMachine) (fun M : Mach s₀.inp e K => (twopi : M.α)) (twopi : ℝ) :=
    (Stable.int 2).mul Stable.pi
  have sG' : ∀ n, 1 ≤ n → ∀ i, Stable (π := Mach.toMachine) (fun M : Mach s₀.inp e K => (drawnGrid n i : M.α))
      (drawnGrid n i) := fun n hn i => stable_linspace two' n hn i
  have lin' : ∀ {X : ∀ M : Mach s₀.inp e K, M.α} {r : ℝ}, Stable (π := Mach.toMachine) X r →
      Linear Mach.toMachine (fun M δ => M.fin (X M) ∧ |M.val (X M) - r| ≤ δ) ∧
        Grows (fun (M : Mach s₀.inp e K) δ => M.fin (X M) ∧ |M.val (X M) - r| ≤ δ) :=
    fun h => ⟨h, fun M δ δ' hd hh => ⟨hh.1, hh.2.trans hd⟩⟩
  have sO := fun (b : ℕ) (hb : b < d.nsb) (i j : ℕ) =>
    stable_orig (J := s₀.inp) (d := e) (K := K) (hsel b hb) (sG' (nt * q) hnt i) (sG' (np * q) hnp j)
  obtain ⟨⟨D', v', hD', hv', L'⟩, -⟩ := Linear.all d.nsb fun b hb => Linear.all (nt * q + 1) fun i _ =>
    Linear.all (np * q + 1) fun j _ =>
      Linear.and (lin' (sO b hb i j).1) (Linear.and (lin' (sO b hb i j).2.1) (lin' (sO b hb i j).2.2))
  refine ⟨D + D', min u₀ (min v₀ v'), add_nonneg hD hD', lt_min h0 (lt_min hv hv'), fun α _ fin val u hu hle s hs hn => ?_⟩
  have le1 : D * u ≤ (D + D') * u := mul_le_mul_of_nonneg_right (by linarith) hu.u_pos.le
  have le2 : D' * u ≤ (D + D') * u := mul_le_mul_of_nonneg_right (by linarith) hu.u_pos.le
  obtain ⟨s', r, s₀', r₀, g1, g2, g3⟩ := G α fin val u hu (hle.trans (min_le_left _ _)) s hs { hn with }
  have e0 : s₀' = b₀ := (run_false h1 g2).1
  have e1 : s' = runSt e s d.nsb := (run_false hs g1).1
  have hcomp : Computed s' e.nmodes d.nsb d.nfp d.asym := by rw [e1]; exact run_computed hs
  have hcomp₀ : Computed b₀ e.nmodes d.nsb d.nfp d.asym := run_computed h1
  rw [e0] at g3
  have near := L ⟨⟨α, inferInstance, fin, val, u, hu⟩, s', g3⟩ (hle.trans ((min_le_right _ _).trans (min_le_left _ _)))
  have near' := L' ⟨⟨α, inferInstance, fin, val, u, hu⟩, s.inp, hs, hn⟩ (hle.trans ((min_le_right _ _).trans (min_le_right _ _)))
  have e3 : s'.inp = s.inp := by rw [e1]; rfl
  have hs' : RunReady s'.inp e := by rw [e3]; exact hs
  refine ⟨s', r, g1, fun b hb => ?_⟩
  intro S hres disk a hcol hlast ha1 ha2 ha3 ha4
  have hreq : Requested d.nsb a.js b := by
    unfold Requested
    cases ha : a.js with
    | none => exact hlast ha
    | some js => exact hcol js ha
  obtain ⟨s₂, r₂, g4, g5⟩ := hr b hb M N s₁ hN hMN hNM rfl h1 hres
  have e2 : s₂ = b₀ := (run_false h1 g4).1
  rw [e2] at g5
  have pos : ∀ i ≤ nt * q, ∀ j ≤ np * q, ∀ t z : ℝ, t = 2 * Real.pi * i / (nt * q : ℕ) → z = 2 * Real.pi * j / (np * q : ℕ) →
      PointNear fin val S (inputPoint s₀.inp d.asym (selected s₀.inp b))
        (drawnPoint s' e.nmodes d.asym b (drawnGrid (nt * q) i) (drawnGrid (np * q) j)) t z
        ((∑ b ∈ Finset.range d.nsb, C b) * (1 / (M : ℝ)) ^ p + (D + D') * u) := by
    intro i hi j hj t z et ez
    obtain ⟨⟨f1, n1⟩, ⟨f2, n2⟩, f3, n3⟩ := near b hb i (by omega) j (by omega)
    refine ⟨f1, f2, f3, ?_, fun θ ζ q1 q2 => ?_⟩
    · obtain ⟨y, hy⟩ := every_angle_occurs h hp (selected s₀.inp b) (t, z)
      exact ⟨y.1, y.2, congrArg Prod.fst hy, congrArg Prod.snd hy⟩
    have q3 : drawnPoint b₀ e.nmodes e.asym b (drawnGrid (nt * q) i) (drawnGrid (np * q) j) =
        boozerPoint b₀ (numModes M N) d.asym b (S.thetaB θ ζ) (S.zetaB θ ζ) := by
      have w1 : (drawnGrid (nt * q) i : ℝ) = t := by rw [et]; exact wireGrid_at hi
      have w2 : (drawnGrid (np * q) j : ℝ) = z := by rw [ez]; exact wireGrid_at hj
      rw [w1, w2, q1, q2]
      exact drawnPoint_real hcomp₀ hb t z
    have q4 := g5 θ ζ
    rw [← q3] at q4
    have q5 : dist (val (drawnPoint s' e.nmodes d.asym b (drawnGrid (nt * q) i) (drawnGrid (np * q) j)).1,
        val (drawnPoint s' e.nmodes d.asym b (drawnGrid (nt * q) i) (drawnGrid (np * q) j)).2.1,
        val (drawnPoint s' e.nmodes d.asym b (drawnGrid (nt * q) i) (drawnGrid (np * q) j)).2.2)
        (drawnPoint b₀ e.nmodes e.asym b (drawnGrid (nt * q) i) (drawnGrid (np * q) j)) ≤ D * u := by
      rw [Prod.dist_eq, Prod.dist_eq]
      exact max_le n1 (max_le n2 n3)
    have q6 : C b * (1 / (M : ℝ)) ^ p ≤ (∑ b ∈ Finset.range d.nsb, C b) * (1 / (M : ℝ)) ^ p :=
      mul_le_mul_of_nonneg_right (single_le_sum (f := C) (fun b _ => hC b) (Finset.mem_range.2 hb)) (by positivity)
    calc _ ≤ _ := dist_triangle _ _ _
      _ ≤ (D + D') * u + (∑ b ∈ Finset.range d.nsb, C b) * (1 / (M : ℝ)) ^ p := add_le_add (q5.trans le1) (q4.trans q6)
      _ = _ := add_comm _ _
  have pos' : ∀ i ≤ nt * q, ∀ j ≤ np * q, ∀ t z : ℝ, t = 2 * Real.pi * i / (nt * q : ℕ) → z = 2 * Real.pi * j / (np * q : ℕ) →
      PositionNear fin val (origPoint s'.inp e.mnmax e.asym (selected s'.inp b) (drawnGrid (nt * q) i) (drawnGrid (np * q) j))
        (inputPoint s₀.inp d.asym (selected s₀.inp b) t z) ((D + D') * u) := by
    intro i hi j hj t z et ez
    obtain ⟨⟨f1, n1⟩, ⟨f2, n2⟩, f3, n3⟩ := near' b hb i (by omega) j (by omega)
    have e4 : selected s'.inp b = selected s₀.inp b := by
      unfold selected
      rw [e3, hn.surfs]
    have w1 : (drawnGrid (nt * q) i : ℝ) = t := by rw [et]; exact wireGrid_at hi
    have w2 : (drawnGrid (np * q) j : ℝ) = z := by rw [ez]; exact wireGrid_at hj
    rw [e4, e3, ← origPoint_real h (hsel b hb) t z, ← w1, ← w2]
    refine ⟨f1, f2, f3, le_trans ?_ le2⟩
    rw [Prod.dist_eq, Prod.dist_eq]
    exact max_le n1 (max_le n2 n3)
  have hq0 : (q : ℝ) ≠ 0 := by positivity
  have frac : ∀ k n : ℕ, 2 * Real.pi * (k : ℝ) / n = 2 * Real.pi * ((k * q : ℕ) : ℝ) / ((n * q : ℕ) : ℝ) := by
    intro k n
    push_cast
    rw [← mul_assoc, mul_div_mul_right _ _ hq0]
  obtain ⟨first, w1, w2, w3⟩ := wireplot_any (d := e) hcomp a hreq ha1 ha2 ha3 hq2 hs' rfl
  refine ⟨first, _, _, _, _, w1 disk, w2, w3, fun i hi k hk => ⟨?_, ?_⟩, fun j hj k hk => ⟨?_, ?_⟩⟩
  · exact pos _ (Nat.mul_le_mul_right q hi) k hk _ _ (frac i nt) (by push_cast; rfl)
  · exact pos' _ (Nat.mul_le_mul_right q hi) k hk _ _ (frac i nt) (by push_cast; rfl)
  · exact pos k hk _ (Nat.mul_le_mul_right q hj) _ _ (by push_cast; rfl) (frac j np)
  · exact pos' k hk _ (Nat.mul_le_mul_right q hj) _ _ (by push_cast; rfl) (frac j np)

/-- C111 for the example at every resolution, on machines with more and more bits: 10 × 20 lines, 8 points per segment. -/
example (asym : Bool) : ∃ C, ∀ M N : ℕ, 1 ≤ M → 1 ≤ N → M ≤ 2 * N → N ≤ 2 * M → (4 * M + 2) * (4 * N + 2) < 2 ^ 30 →
    ∃ D p₀, ∀ p ≥ p₀, ∃ s' r,
    run false ({ Ex.st asym with
      inp := Ex.mapI (fun x => (⟨Ex.rnd p x⟩ : Ex.Flp p)) { (Ex.gentle asym).inp with mboz := M, nboz := N } }) =
        .ok (s', r) ∧
    ∀ b < 2, ∀ disk, ShowsWiresNear (fun _ => True) Ex.Flp.val (wireplot disk (.object s'))
      (surface (Ex.gentle asym).inp asym (selected (Ex.gentle asym).inp b))
      (inputPoint (Ex.gentle asym).inp asym (selected (Ex.gentle asym).inp b)) 2 b 10 20 8 True
      (D * (4 / 2 ^ p)) (C * (1 / (M : ℝ)) ^ 7 + D * (4 / 2 ^ p)) := by
  obtain ⟨C, -, H⟩ := C111_machine_wires (s₀ := Ex.gentle asym) (d := Ex.dims asym) (Ex.gentle_ready asym)
    (Ex.fieldPeriodic (α := ℝ) asym) (Ex.originOnce (α := ℝ) asym)
    (fun b hb => Ex.gentle_regular asym (Ex.selected_lt asym b hb))
    (fun b hb θ ζ => (lt_trans (by norm_num) (Ex.gentle_det asym (Ex.selected_lt asym b hb) θ ζ)).ne')
    (c := 2) (by norm_num) (ρ := 1 / 2) (by norm_num) 7
  refine ⟨C, fun M N hM hN h2 h3 hf => ?_⟩
  have hr := Ex.gentle_ready_res asym hM hf
  obtain ⟨K, hK, near⟩ := Ex.mapI_near hr
  obtain ⟨D, u₀, -, h0, G⟩ := H M N hN (by exact_mod_cast h2) (by exact_mod_cast h3) hr K hK 10 20 8 (by norm_num)
    (by norm_num) (by norm_num)
  obtain ⟨p₀, hp₀⟩ := Ex.bits h0
  refine ⟨D, p₀, fun p hp => ?_⟩
  obtain ⟨s', r, g1, g2⟩ := G (Ex.Flp p) (fun _ => True) Ex.Flp.val (4 / 2 ^ p) (Ex.flp_precision p) (hp₀ p hp)
    { Ex.st asym with
      inp := Ex.mapI (fun x => (⟨Ex.rnd p x⟩ : Ex.Flp p)) { (Ex.gentle asym).inp with mboz := M, nboz := N } }
    (Ex.mapI_ready _ hr) { near p with }
  exact ⟨s', r, g1, fun b hb => g2 b hb (Ex.gentle_resolved asym (Ex.selected_lt asym b hb) h2 h3)⟩

/-! ## From file to figure -/

/-- **C111, from file to figure: `wireplot`.**  Let `f₀` be a `wout` file with exact numbers that `read_wout` accepts, `b₀` the equilibrium
it describes, on whose surfaces the Boozer angles are coordinates, and `p` an order.  There is a constant `C`, and for every
request that can be carried out, with comparable numbers of modes, and every number of lines and points a constant `D` and a precision
`u₀`, such that on every machine of precision `u ≤ u₀`, where negating twice changes nothing, the following holds.  If the disk
holds an input file with this request and a `wout` file whose numbers are within `K u` of those of `f₀`, then `xbooz_xform`
returns 0, and `wireplot` with the name of the `boozmn` file that it leaves shows the lines of constant Boozer angles on each
requested surface resolved by the grid within `C / mboz^p + D u`. -/
theorem C111_file_wires {disk₀ : Disk ℝ} {path₀ : String} {f₀ : NcFile ℝ} {z : WoutSizes} {b₀ : St ℝ}
    (hd₀ : disk₀ path₀ = .nc f₀) (hz₀ : WoutShapes f₀ z) (hl₀ : readWout disk₀ path₀ false construct = .ok () b₀)
    (hi : ∀ k, k < (intsOf f₀ "xn_nyq").size → ((intsOf f₀ "xn_nyq").val 0 k).natAbs < 2147483648)
    (hns : z.ns ≤ 2147483644)
    (hfp : FieldPeriodic b₀.inp z.nfp.toNat) (ho : OriginOnce b₀.inp)
    (hreg : ∀ js : ℕ, (js : ℤ) < z.ns - 1 → (surface b₀.inp (decide (z.lasym ≠ 0)) js).Regular)
    (hdet : ∀ js : ℕ, (js : ℤ) < z.ns - 1 → ∀ θ ζ, (surface b₀.inp (decide (z.lasym ≠ 0)) js).det θ ζ ≠ 0)
    (surfs : List ℤ) (hlen : surfs.length ≤ 2147483644) {c : ℝ} (hc0 : 0 ≤ c) {ρ : ℝ} (hρ : ρ < 1) (p : ℕ) :
    ∃ C, 0 ≤ C ∧ ∀ r : Request, r.surfs = surfs → CanRun f₀ z r → 1 ≤ torRes z r →
      (polRes z r : ℝ) ≤ c * torRes z r → (torRes z r : ℝ) ≤ c * polRes z r → ∀ K : ℝ, 0 ≤ K →
      ∀ nt np q : ℕ, 1 ≤ nt → 1 ≤ np → 2 ≤ q → ∃ D u₀, 0 < u₀ ∧
      ∀ (α : Type) [Arith α] (fin : α → Prop) (val : α → ℝ) (u : ℝ), Precision α fin val u → u ≤ u₀ → (∀ x : α, - - x = x) →
      ∀ (w : World α) (content : List Char) (path prog : String) (env : Env) (version : String) (f : NcFile α),
        w.disk path = .other content → Asks content r →
        w.disk ("wout_" ++ String.ofList r.ext ++ ".nc") = .nc f → WoutShapes f z → WoutNear fin val z (K * u) f f₀ →
        VersionOk version → NoFailure env →
        ∃ (w' : World α) (out : NcFile α) (nb : ℕ), driver env version [prog, path] w = .ok 0 w' ∧
          w'.disk ("boozmn_" ++ String.ofList r.ext ++ ".nc") = .nc out ∧
          (∀ j, Wanted z r j ↔ ∃ b < nb, FileInt out "jlist" b (j + 2)) ∧
          ∀ b j, FileInt out "jlist" b (j + 2) → let S := surface b₀.inp (decide (z.lasym ≠ 0)) j.toNat
            S.ResolvedBy z.nfp.toNat (polRes z r) (torRes z r) ρ →
            ShowsWiresNear fin val (wireplot w'.disk (.file ("boozmn_" ++ String.ofList r.ext ++ ".nc"))) S
              (inputPoint b₀.inp (decide (z.lasym ≠ 0)) j.toNat) nb b nt np q False (D * u) (C * (1 / (polRes z r : ℝ)) ^ p + D * u) := by
  obtain ⟨hg₀, hl₀'⟩ := wout_loaded hd₀ hz₀ hl₀
  obtain ⟨-, -, C₀, -⟩ := vmec_inv hg₀ hl₀'
  have hns2 : 2 ≤ z.ns := C₀.ns_ge
  by_cases hex : ∃ r : Request, r.surfs = surfs ∧ CanRun f₀ z r
  swap
  · exact ⟨0, le_rfl, fun r h1 h2 => absurd ⟨r, h1, h2⟩ hex⟩
  obtain ⟨r₁, rfl, hc₁⟩ := hex
  obtain ⟨l, hS, hl1, hl2, hmem⟩ := wantedVec_full (r := r₁) hns2
  have hr₁ := requested_ready hg₀ hl₀' hi hc₁ hS hl1
  have hsel : ∀ b (hb : b < l.length), (wantedVec z r₁).val 0 b = l[b] := fun b hb => by rw [hS, val_list hb]
  have range : ∀ b < l.length, 0 ≤ (wantedVec z r₁).val 0 b ∧ (wantedVec z r₁).val 0 b < z.ns - 1 := fun b hb => by
    have := hr₁.surfs_range b hb
    have h1 : 0 ≤ (wantedVec z r₁).val 0 b := this.1
    have h2 : ((wantedVec z r₁).val 0 b) < ((z.ns - 1).toNat : ℕ) := this.2
    omega
  have range' : ∀ b < l.length, (((wantedVec z r₁).val 0 b).toNat : ℤ) < z.ns - 1 := fun b hb => by
    have := range b hb
    omega
  obtain ⟨C, hC, H⟩ := C111_machine_wires (s₀ := settings (wantedVec z r₁) (polRes z r₁) (torRes z r₁) 1 b₀) hr₁ hfp ho
    (fun b hb => hreg _ (range' b hb)) (fun b hb => hdet _ (range' b hb)) hc0 hρ p
  refine ⟨C, hC, fun r hrs hc hN hMN hNM K hK nt np q ht hq hq2 => ?_⟩
  have hW : wantedVec z r = wantedVec z r₁ := by unfold wantedVec; rw [hrs]
  have hr := requested_ready hg₀ hl₀' hi hc (hW.trans hS) hl1
  obtain ⟨E, u₀, e0, p0, L⟩ := C71_load hg₀ hl₀' hK
  obtain ⟨D, v₀, hD, v0, G⟩ := H (polRes z r) (torRes z r) hN hMN hNM (by rw [hW] at hr; exact hr) E e0 nt np q ht hq hq2
  refine ⟨D, min u₀ v₀, lt_min p0 v0,
    fun α _ fin val u hu hle hneg w content path prog env version f hp ha hd hz hn hv he => ?_⟩
  obtain ⟨b, hb⟩ := loads_near hd₀ hz₀ hl₀ hd hz hn
  obtain ⟨hg, hl⟩ := wout_loaded hd hz hb
  have hx := hn.modes "xn_nyq" (by simp)
  obtain ⟨w', hw'⟩ := (C43_exact (prog := prog) hp ha hd hz hb (by rw [hx]; exact hi) hv he (by rw [hrs]; exact hlen)
    hns).1.2 ((canRun_near hn r).2 hc)
  obtain ⟨b1, t, rep, v, k1, k2, k3, k4⟩ := driver_inv hp ha hw'
  cases (show Out.ok () b1 = Out.ok () b from k1.symm.trans hb)
  have hmp := hc.1.mpol
  have e0 : (woutSizesOf f₀ z).mpol = z.mpol := rfl
  obtain ⟨e1, e2⟩ := res_eq (z := z) (r := r) (by omega)
  rw [requested_settings r hg hl, ← e1, ← e2, hW] at k2
  rw [woutSizes_near hn] at hg
  obtain ⟨r1, r2, r3, r4, r5⟩ := ready_loaded hg₀ hl₀' hg hl (sameModes_near hn) hr
  have R := r1
  rw [hW] at R
  have near := L α fin val u hu (hle.trans (min_le_left _ _)) _ _ b hg (sameModes_near hn) (argsNear_near hz hn) hl _ r2 r3 r4 r5
  obtain ⟨t', rep', q1, q2⟩ := G α fin val u hu (hle.trans (min_le_right _ _))
    (settings (wantedVec z r₁) (polRes z r) (torRes z r) 1 b) R { near with surfs := rfl }
  rw [k2] at q1
  cases q1
  have hflux : FluxOk (settings (wantedVec z r₁) (polRes z r) (torRes z r) 1 b).flux (z.ns - 1).toNat := by
    rw [vmec_result hg hl]
    exact .inl rfl
  have HR := run_hasResults R hl1 (by show l.length ≤ _; omega) (by show (z.ns - 1).toNat + 1 ≤ _; omega) hflux
  rw [← (run_false R k2).1] at HR
  obtain ⟨out, o1, o2⟩ := C34_layout HR hv k3
  have hj : HoldsSurfs out l.length (listVec l) := by
    have := o2.jlist
    rw [(run_false R k2).1] at this
    rw [← hS]
    exact this
  have hgrid : HalfGrid (settings (wantedVec z r₁) (polRes z r) (torRes z r) 1 b).inp.s_in (z.ns - 1).toNat := by
    have : HalfGrid b.inp.s_in (z.ns - 1).toNat := C33_loaded_grid hg hl
    exact this
  have hphi : (settings (wantedVec z r₁) (polRes z r) (torRes z r) 1 b).flux.phip.size ≠ 0 →
      ∃ x, (settings (wantedVec z r₁) (polRes z r) (torRes z r) 1 b).flux.phi[(z.ns - 1).toNat]? = some (some x) := by
    intro k
    rw [vmec_result hg hl] at k
    exact absurd rfl k
  obtain ⟨-, -, -, f1⟩ := C63_partial (any := w.disk) hneg R hgrid hl1 (by show l.length ≤ _; omega)
    (by show (z.ns - 1).toNat + 1 ≤ _; omega) hflux hphi k2 hv k3
  refine ⟨w', out, l.length, hw', by rw [k4]; exact o1, fun j => ?_, fun b' j g1 => ?_⟩
  · have : Wanted z r j ↔ Wanted z r₁ j := by unfold Wanted; rw [hrs]
    rw [this, ← hmem, List.mem_iff_getElem]
    refine exists_congr fun b => ⟨fun hb => ⟨hb.1, (fileSurf_iff hj).2 hb⟩, fun hb => (fileSurf_iff hj).1 hb.2⟩
  intro S hres
  obtain ⟨hb', rfl⟩ := (fileSurf_iff hj).1 g1
  have key := q2 b' hb'
  have esel : selected (settings (wantedVec z r₁) (polRes z r₁) (torRes z r₁) 1 b₀).inp b' = l[b'].toNat :=
    congrArg Int.toNat (hsel b' hb')
  rw [esel] at key
  intro a a1 a2 a3 a4 a5 a6
  obtain ⟨first, P, T, P', T', y1, y2⟩ := key hres w.disk a a1 a2 a3 a4 a5 fun _ => trivial
  refine ⟨first, P, T, P', T', fun fig => ?_, y2⟩
  rw [k4, ← y1 fig]
  have a7 : a.orig = false := by
    cases e : a.orig
    · rfl
    · exact (a6 e).elim
  exact congrFun (f1 a a7) fig

/-- C111 for a `wout` file on the disk: 10 × 20 lines from the `boozmn` file. -/
example : ∃ b₀ : St ℝ, readWout (Ex.softWorld Ex.input).disk ("wout_" ++ String.ofList ['x'] ++ ".nc") false construct =
      .ok () b₀ ∧ ∃ C D : ℝ, ∃ p₀, ∀ p ≥ p₀, ∃ w' out nb,
    driver Ex.calm "0.0.1" ["xbooz_xform", "in"] (Ex.softWorld (α := Ex.Flp p) Ex.input) = .ok 0 w' ∧
    w'.disk ("boozmn_" ++ String.ofList ['x'] ++ ".nc") = .nc out ∧
    ∀ b j, FileInt out "jlist" b (j + 2) → j.toNat < 3 →
      ShowsWiresNear (fun _ => True) Ex.Flp.val (wireplot w'.disk (.file ("boozmn_" ++ String.ofList ['x'] ++ ".nc")))
        (surface b₀.inp false j.toNat) (inputPoint b₀.inp false j.toNat) nb b 10 20 8 False (D * (4 / 2 ^ p))
        (C * (1 / 16) ^ 9 + D * (4 / 2 ^ p)) := by
  obtain ⟨b₀, h₀⟩ := Ex.soft_loads (α := ℝ) Ex.input
  have s := Ex.softened h₀
  obtain ⟨hp, ho, hreg, hdet⟩ := Ex.softened_ok s
  refine ⟨b₀, h₀, ?_⟩
  have hi : ∀ k, k < (intsOf (Ex.soft (α := ℝ)) "xn_nyq").size →
      ((intsOf (Ex.soft (α := ℝ)) "xn_nyq").val 0 k).natAbs < 2147483648 := by
    rw [Ex.soft_ints (by decide)]
    exact Ex.wout_nyq
  obtain ⟨C, -, H⟩ := C111_file_wires (Ex.softWorld_wout _) Ex.soft_shapes h₀ hi (by decide) hp ho hreg hdet [1, 0] (by decide)
    (c := 2) (by norm_num) (ρ := 1 / 2) (by norm_num) 9
  have eM : polRes (Ex.woutZ 0) Ex.request = 16 := rfl
  have eN : torRes (Ex.woutZ 0) Ex.request = 8 := rfl
  obtain ⟨D, u₀, h0, G⟩ := H Ex.request rfl Ex.soft_can_run (by decide) (by rw [eM, eN]; norm_num)
    (by rw [eM, eN]; norm_num) 100 (by norm_num) 10 20 8 (by norm_num) (by norm_num) (by norm_num)
  obtain ⟨p₀, hp₀⟩ := Ex.bits h0
  refine ⟨C, D, p₀, fun p hp => ?_⟩
  have neg : ∀ x : Ex.Flp p, - - x = x := fun x => congrArg Ex.Flp.mk (neg_neg x.val)
  obtain ⟨w', out, nb, g1, g2, -, g3⟩ := G (Ex.Flp p) _ Ex.Flp.val (4 / 2 ^ p) (Ex.flp_precision p) (hp₀ p hp) neg
    (Ex.softWorld Ex.input) Ex.input "in" "xbooz_xform" Ex.calm "0.0.1" Ex.soft (Ex.softWorld_in _) Ex.input_asks
    (Ex.softWorld_wout _) Ex.soft_shapes (Ex.soft_near p) Ex.version Ex.noFailure
  refine ⟨w', out, nb, g1, g2, fun b j hb hj => ?_⟩
  have := g3 b j hb (Ex.soft_resolved s hj)
  rw [eM] at this
  push_cast at this
  exact this

end Booz
