import Verif.Spec.Views
import Verif.Props.Session

/-!
# C81: arrays taken from attributes
-/

namespace Booz
variable {α : Type} [Arith α]
open Spec

/-! ### Reading a `wout` file does not touch the outputs -/

/-- The outputs are the same after a return and after an exception. -/
def KeepsOut {β : Type} (p : Prog (St α) β) : Prop := ∀ s,
  (∀ x t, p s = .ok x t → t.out = s.out) ∧ (∀ m t, p s = .exc m t → t.out = s.out)

theorem KeepsOut.bind {β γ : Type} {p : Prog (St α) β} {f : β → Prog (St α) γ} (hp : KeepsOut p)
    (hf : ∀ x, KeepsOut (f x)) : KeepsOut (p >>= f) := by
  intro s
  rw [Prog.bind_def]
  cases e : p s with
  | ok x t =>
    have h1 := (hp s).1 x t e
    exact ⟨fun y u h => ((hf x t).1 y u h).trans h1, fun m u h => ((hf x t).2 m u h).trans h1⟩
  | exc m t => exact ⟨fun y u h => (by cases h), fun m u h => by cases h; exact (hp s).2 _ _ e⟩
  | abort x => exact ⟨fun y u h => (by cases h), fun m u h => by cases h⟩
  | ub x => exact ⟨fun y u h => (by cases h), fun m u h => by cases h⟩

theorem KeepsOut.get : KeepsOut (Prog.get (σ := St α)) :=
  fun _ => ⟨fun _ _ h => (by cases h; rfl), fun _ _ h => by cases h⟩

theorem KeepsOut.lift {β : Type} (r : Res β) : KeepsOut (Prog.lift (σ := St α) r) := by
  intro s
  unfold Prog.lift
  cases r with
  | ok x => exact ⟨fun _ _ h => (by cases h; rfl), fun _ _ h => by cases h⟩
  | error e =>
    cases e with
    | throw m => exact ⟨fun _ _ h => (by cases h), fun _ _ h => by cases h; rfl⟩
    | ub w => exact ⟨fun _ _ h => (by cases h), fun _ _ h => by cases h⟩
    | assertFail w => exact ⟨fun _ _ h => (by cases h), fun _ _ h => by cases h⟩

theorem KeepsOut.setInp (g : Inputs α → Res (Inputs α)) : KeepsOut (setInp g) := by
  intro s
  unfold Booz.setInp
  cases e : g s.inp with
  | ok I =>
    refine ⟨fun x t h => ?_, fun x t h => ?_⟩ <;>
    · simp only [Prog.modify, Prog.bind_def, Prog.get, e, pure_bind, Prog.lift] at h
      cases h
      try rfl
  | error f =>
    cases f <;>
    · refine ⟨fun x t h => ?_, fun x t h => ?_⟩ <;>
      · simp only [Prog.modify, Prog.bind_def, Prog.get, e, Prog.lift] at h
        cases h
        try rfl

theorem KeepsOut.vmec (ns : Int) (A : VmecArgs α) : KeepsOut (initFromVmec ns A) := by
  intro s
  unfold initFromVmec
  simp only [Prog.get_bind]
  cases i32 (ns - 1) with
  | error e => cases e <;> exact ⟨fun _ _ h => (by cases h), fun _ _ h => (by cases h <;> rfl)⟩
  | ok n =>
    simp only [Prog.lift_ok_bind, Prog.set_bind, Prog.get_bind]
    cases validate ns A { s.inp with ns_in := some n } with
    | error e => cases e <;> exact ⟨fun _ _ h => (by cases h), fun _ _ h => (by cases h <;> rfl)⟩
    | ok u =>
      simp only [Prog.lift_ok_bind]
      cases load ns n A { s.inp with ns_in := some n } s.flux with
      | error e => cases e <;> exact ⟨fun _ _ h => (by cases h), fun _ _ h => (by cases h <;> rfl)⟩
      | ok r => exact ⟨fun _ _ h => (by cases h; rfl), fun _ _ h => (by cases h)⟩

theorem KeepsOut.readWout (disk : Disk α) (path : String) (flux : Bool) :
    KeepsOut (readWout disk path flux) := by
  unfold Booz.readWout readWoutBody
  repeat' first
    | exact KeepsOut.vmec _ _
    | exact KeepsOut.lift _
    | exact KeepsOut.setInp _
    | exact KeepsOut.get
    | exact KeepsOut.lift (.ok _)
    | refine KeepsOut.bind ?_ fun _ => ?_

/-! ### What a view shows -/

/-- Calls other than `run` and `read_boozmn` leave the outputs alone. -/
theorem perform_out {c : Call} (hc : ¬ WritesOutputs c) {w w' : Sess α}
    (h : perform c w = .ok () w' ∨ ∃ m, perform c w = .exc m w') : w'.obj.out = w.obj.out := by
  cases c with
  | run => exact absurd trivial hc
  | readBoozmn p => exact absurd trivial hc
  | setMboz m => rcases h with h | ⟨_, h⟩ <;> cases h; rfl
  | setNboz m => rcases h with h | ⟨_, h⟩ <;> cases h; rfl
  | setVerbose m => rcases h with h | ⟨_, h⟩ <;> cases h; rfl
  | setSurfs m => rcases h with h | ⟨_, h⟩ <;> cases h; rfl
  | readWout p fl =>
    have k := KeepsOut.readWout w.disk p fl w.obj
    change Sess.on (readWout w.disk p fl) w = _ ∨ ∃ m, Sess.on (readWout w.disk p fl) w = _ at h
    unfold Sess.on at h
    cases e : readWout w.disk p fl w.obj with
    | ok x t => rw [e] at h; rcases h with h | ⟨_, h⟩ <;> cases h; exact k.1 _ _ e
    | exc x t => rw [e] at h; rcases h with h | ⟨_, h⟩ <;> cases h; exact k.2 _ _ e
    | abort x => rw [e] at h; rcases h with h | ⟨_, h⟩ <;> cases h
    | ub x => rw [e] at h; rcases h with h | ⟨_, h⟩ <;> cases h
  | write env v p =>
    have k := C36_partial env v p w.disk w.obj
    change Sess.write env v p w = _ ∨ ∃ m, Sess.write env v p w = _ at h
    unfold Sess.write at h
    have hk : ∀ t : St α, OnlyPhip w.obj t → t.out = w.obj.out := by
      intro t ht
      rcases ht with ht | ⟨-, ht⟩ <;> rw [ht]
    cases e : writeBoozmn env v p w.disk w.obj with
    | ok x t => rw [e] at h; rcases h with h | ⟨_, h⟩ <;> cases h; exact hk _ (k.1 _ e)
    | exc x t => rw [e] at h; rcases h with h | ⟨_, h⟩ <;> cases h; exact hk _ (k.2 _ _ e)
    | abort x => rw [e] at h; rcases h with h | ⟨_, h⟩ <;> cases h
    | ub x => rw [e] at h; rcases h with h | ⟨_, h⟩ <;> cases h

omit [Arith α] in
theorem block_out {a : Attr} (ha : a.isOutput = true) {s t : St α} (h : t.out = s.out) :
    a.block t = a.block s := by
  cases a <;> first | (simp only [Attr.block, h]; done) | exact absurd ha (by decide)

theorem step_perform {c : Call} {w w' : VSess α}
    (h : VSess.step c w = .ok () w' ∨ ∃ m, VSess.step c w = .exc m w') :
    w' = w.moved w'.sess ∧
    (perform c w.sess = .ok () w'.sess ∨ ∃ m, perform c w.sess = .exc m w'.sess) := by
  unfold VSess.step at h
  cases e : perform c w.sess with
  | ok x t => rw [e] at h; rcases h with h | ⟨_, h⟩ <;> cases h; exact ⟨rfl, .inl rfl⟩
  | exc x t => rw [e] at h; rcases h with h | ⟨_, h⟩ <;> cases h; exact ⟨rfl, .inr ⟨_, rfl⟩⟩
  | abort x => rw [e] at h; rcases h with h | ⟨_, h⟩ <;> cases h
  | ub x => rw [e] at h; rcases h with h | ⟨_, h⟩ <;> cases h

omit [Arith α] in
theorem moved_same {w : VSess α} {t : Sess α} {a : Attr} (h : a.count t.obj = a.count w.sess.obj) :
    (w.moved t).gen a = w.gen a := if_pos h

omit [Arith α] in
theorem moved_other {w : VSess α} {t : Sess α} {a : Attr} (h : a.count t.obj ≠ a.count w.sess.obj) :
    (w.moved t).gen a = w.gen a + 1 := if_neg h

/-- Induction over programs, for what does not depend on how calls end. -/
theorem CallsTo.rule {P : Call → Prop} {Q : VSess α → Prop} {u w : VSess α} (hg : CallsTo P Q u w)
    {M : VSess α → Prop} (h0 : M u)
    (hs : ∀ {w w' : VSess α} {c : Call}, P c → Q w → Q w' → w' = w.moved w'.sess →
      (perform c w.sess = .ok () w'.sess ∨ ∃ m, perform c w.sess = .exc m w'.sess) → M w → M w') :
    M w ∧ Q w := by
  induction hg with
  | refl h => exact ⟨h0, h⟩
  | ok hg hc h hq ih =>
    obtain ⟨e, hp⟩ := step_perform (.inl h)
    exact ⟨hs hc ih.2 hq e hp ih.1, hq⟩
  | exc hg hc h hq ih =>
    obtain ⟨e, hp⟩ := step_perform (.inr ⟨_, h⟩)
    exact ⟨hs hc ih.2 hq e hp ih.1, hq⟩

/-- Storage is never given back, and as long as it was not replaced the number of elements is the
same. -/
theorem goes_gen {P : Call → Prop} {Q : VSess α → Prop} {u w : VSess α} (hg : CallsTo P Q u w) (a : Attr) :
    u.gen a ≤ w.gen a ∧ (w.gen a = u.gen a → a.count w.sess.obj = a.count u.sess.obj) := by
  refine (CallsTo.rule hg (M := fun w => u.gen a ≤ w.gen a ∧
    (w.gen a = u.gen a → a.count w.sess.obj = a.count u.sess.obj)) ⟨le_rfl, fun _ => rfl⟩ ?_).1
  intro w w' c _ _ _ e _ ih
  by_cases h : a.count w'.sess.obj = a.count w.sess.obj
  · have : w'.gen a = w.gen a := by rw [e]; exact moved_same h
    exact ⟨by omega, fun k => h.trans (ih.2 (by omega))⟩
  · have : w'.gen a = w.gen a + 1 := by rw [e]; exact moved_other h
    exact ⟨by omega, fun k => by omega⟩

/-- **C81, what holds.**  Let `v` be an array taken from an attribute, and let any calls follow.

1. If `v` was taken from an output and neither `run` nor `read_boozmn` is called, `v` keeps its
   contents.
2. As long as the number of elements of the attribute stays the same, `v` shows what the attribute
   holds now, at the same place of the storage.
3. Once the number of elements was different, every use of an element of `v` is undefined behaviour.

Missing: that `v` keeps its contents whatever is called (false, see `C81_false`). -/
theorem C81_partial (w : VSess α) (a : Attr) :
    (a.isOutput = true → ∀ w', CallsTo (fun c => ¬ WritesOutputs c) (fun _ => True) w w' →
      ∀ i j, (w.take a).item w' i j = (w.take a).item w i j) ∧
    (∀ w', CallsTo (fun _ => True) (fun u => a.count u.sess.obj = a.count w.sess.obj) w w' →
      ∀ i j c, i < (w.take a).rows → j < (w.take a).cols →
        (a.block w'.sess.obj).cells[i + (w.take a).rows * j]? = some c →
        (w.take a).item w' i j = .ok c) ∧
    (∀ u w', CallsTo (fun _ => True) (fun _ => True) w u → a.count u.sess.obj ≠ a.count w.sess.obj →
      CallsTo (fun _ => True) (fun _ => True) u w' →
      ∀ i j, i < (w.take a).rows → j < (w.take a).cols →
        ∃ why, (w.take a).item w' i j = ub why) := by
  refine ⟨fun ha w' hg i j => ?_, fun w' hg i j c hi hj hc => ?_, fun u w' h1 hn h2 i j hi hj => ?_⟩
  · have key := (CallsTo.rule hg (M := fun u => u.gen a = w.gen a ∧ a.block u.sess.obj = a.block w.sess.obj)
      ⟨rfl, rfl⟩ (by
        intro u u' c hc _ _ e hp ih
        have hb := block_out ha (perform_out hc hp)
        refine ⟨?_, hb.trans ih.2⟩
        rw [e]
        exact (moved_same (by unfold Attr.count; rw [hb])).trans ih.1)).1
    have e1 : w'.gen (w.take a).attr = w.gen (w.take a).attr := key.1
    have e2 : (w.take a).attr.block w'.sess.obj = (w.take a).attr.block w.sess.obj := key.2
    unfold View.item
    rw [e1, e2]
  · have key := (CallsTo.rule hg (M := fun u => u.gen a = w.gen a) rfl (by
        intro u u' c _ h1 h2 e _ ih
        rw [e]
        exact (moved_same (h2.trans h1.symm)).trans ih)).1
    unfold View.item
    rw [if_pos ⟨hi, hj⟩]
    have e1 : w'.gen (w.take a).attr = (w.take a).gen := key
    have e2 : ((w.take a).attr.block w'.sess.obj).cells[i + (w.take a).rows * j]? = some c := hc
    rw [if_pos e1, e2]
  · have k1 := goes_gen h1 a
    have k2 := (goes_gen h2 a).1
    have hne : w'.gen a ≠ w.gen a := fun e => hn (k1.2 (by omega))
    refine ⟨"storage of the array was freed", ?_⟩
    unfold View.item
    rw [if_pos ⟨hi, hj⟩]
    exact if_neg hne

/-! ### Contents change and storage disappears -/

/-- After loading the example file. -/
theorem Ex.views_load {disk : Disk α} (hd : disk "wout.nc" = .nc (Ex.wout 0)) :
    ∃ s : St α, Reach disk ⟨true, false, fun _ => false⟩ ⟨s, disk⟩ ∧
      s.inp.asym = some false ∧ s.inp.nfp = some 2 ∧ s.inp.ns_in = some 3 ∧
      s.inp.s_in = Vec.tab 3 (sinV 4) := by
  have l1 : Legal .start (⟨construct, disk⟩ : Sess α) (.readWout "wout.nc" false) :=
    ⟨Ex.wout 0, Ex.woutZ 0, hd, Ex.validWout, .inl (by show (1 : Int) ≤ 1; decide)⟩
  have hf : (construct : St α).inp.compute_surfs.Full (construct : St α).inp.compute_surfs.size :=
    ⟨rfl, fun i hi => absurd hi (Nat.not_lt_zero i)⟩
  rcases load_step Ex.validWout hd (construct : St α) hf (.inl (by show (1 : Int) ≤ 1; decide)) with
    ⟨s1, e1, ⟨I, -, hI, -, -, -, -, e⟩, -⟩ | ⟨m, s', -, hn, -⟩
  · have p1 : perform (.readWout "wout.nc" false) (⟨construct, disk⟩ : Sess α) = .ok () ⟨s1, disk⟩ := by
      show Sess.on _ _ = _
      unfold Sess.on
      rw [e1]
    refine ⟨s1, Reach.ok .start l1 p1, ?_, ?_, ?_, ?_⟩
    · rw [e]
      show I.asym = _
      rw [hI]
      rfl
    · rw [e]
      show I.nfp = _
      rw [hI]
      rfl
    · rw [e]
      rfl
    · rw [e]
      rfl
  · exact absurd ⟨hf, fun j hj => absurd hj (Nat.not_lt_zero j)⟩ hn

/-- A run of the example for two surfaces. -/
theorem Ex.views_run (hneg : ∀ x : α, - - x = x) {disk : Disk α} {h : History} {s : St α}
    (hr : Reach disk h ⟨s, disk⟩) (hl : h.loaded = true)
    (ha : s.inp.asym = some false) (hf : s.inp.nfp = some 2)
    (hns : s.inp.ns_in = some 3) {m : Nat} (hm : s.inp.mboz = m) (hm4 : m = 4 ∨ m = 5)
    (hn : s.inp.nboz = 1) {x y : Nat} (hx : x < 3) (hy : y < 3)
    (hc : s.inp.compute_surfs = #[some (x : Int), some (y : Int)]) :
    ∃ s' : St α, Legal h ⟨s, disk⟩ .run ∧ perform .run ⟨s, disk⟩ = .ok () ⟨s', disk⟩ ∧
      s'.inp = s.inp ∧
      s'.out.s_b = Vec.tab 2 (fun j => s.inp.s_in.val (ofInt 0) (s.inp.compute_surfs.val 0 j).toNat) ∧
      s'.out.spec.bmnc_b.Full (3 * (m - 1) + 2) 2 := by
  have hleg : Legal h ⟨s, disk⟩ .run := by
    refine ⟨hl, ?_, ?_, ?_⟩
    · show s.inp.compute_surfs.size ≠ 0
      rw [hc]
      exact Nat.succ_ne_zero 1
    · show ∀ ns, s.inp.ns_in = some ns → ∀ k, k < s.inp.compute_surfs.size →
        0 ≤ s.inp.compute_surfs.val 0 k ∧ s.inp.compute_surfs.val 0 k < ns
      rw [hns, hc]
      intro ns e k hk
      cases e
      match k, hk with
      | 0, _ => exact ⟨Int.natCast_nonneg x, by show (x : Int) < 3; omega⟩
      | 1, _ => exact ⟨Int.natCast_nonneg y, by show (y : Int) < 3; omega⟩
    · show ∀ asym nfp, s.inp.asym = some asym → s.inp.nfp = some nfp →
        GridFits asym s.inp.mboz.toNat s.inp.nboz.toNat nfp.toNat
      rw [ha, hf, hm, hn]
      intro a n e1 e2
      cases e1
      cases e2
      rcases hm4 with rfl | rfl <;> constructor <;> decide
  obtain ⟨s', d, p, es, hrd, hnsb, hR, -, -⟩ := run_step (reach_inv hneg hr) hleg
  have hK : d.nmodes = 3 * (m - 1) + 2 := by
    have a : s.inp.mboz = d.M := hrd.mboz
    have b : s.inp.nboz = d.N := hrd.nboz
    have a' : d.M = m := by omega
    have b' : d.N = 1 := by omega
    unfold Dims.nmodes
    rw [a', b']
  have hB : d.nsb = 2 := by
    rw [hnsb]
    show s.inp.compute_surfs.size = 2
    rw [hc]
    rfl
  refine ⟨s', hleg, p, by rw [es]; rfl, ?_, ?_⟩
  · rw [es, ← hB]
    rfl
  · rw [es, ← hK]
    rw [← hB]
    unfold runSt specTab
    cases d.asym <;> simp [Mat.full_tab]

theorem step_of {c : Call} {w : VSess α} {t : Sess α} (h : perform c w.sess = .ok () t) :
    VSess.step c w = .ok () (w.moved t) := by
  unfold VSess.step
  rw [h]

/-- **C81 is false** of the code.  After a run, take `s_b` and `bmnc_b`.  Selecting the same surfaces
in another order and running again changes the contents of the first array.  Running again at another resolution
frees the storage of the second: using it is undefined behaviour. -/
theorem C81_false : ∃ (disk : Disk ℝ) (h : History) (w : VSess ℝ), Reach disk h w.sess ∧
    h.results = true ∧
    (∃ w1 w2, Legal h w.sess (.setSurfs [0, 1]) ∧ VSess.step (.setSurfs [0, 1]) w = .ok () w1 ∧
      Legal (h.after (.setSurfs [0, 1]) true) w1.sess .run ∧ VSess.step .run w1 = .ok () w2 ∧
      ∃ x y : ℝ, x ≠ y ∧ (w.take .s_b).item w 0 0 = .ok (some (.inl x)) ∧
        (w.take .s_b).item w2 0 0 = .ok (some (.inl y))) ∧
    (∃ w1 w2, Legal h w.sess (.setMboz 5) ∧ VSess.step (.setMboz 5) w = .ok () w1 ∧
      Legal (h.after (.setMboz 5) true) w1.sess .run ∧ VSess.step .run w1 = .ok () w2 ∧
      (∃ x : ℝ, (w.take .bmnc_b).item w 0 0 = .ok (some (.inl x))) ∧
      ∃ why, (w.take .bmnc_b).item w2 0 0 = ub why) := by
  have hneg : ∀ x : ℝ, - - x = x := neg_neg
  obtain ⟨s1, r1, ha, hf, hns, hsi⟩ := Ex.views_load (α := ℝ) (disk := fun _ => .nc (Ex.wout 0)) rfl
  generalize hdisk : (fun _ => .nc (Ex.wout 0) : Disk ℝ) = disk at r1
  have r2 := Reach.ok (c := .setSurfs [1, 0]) r1 (by show (2 : Nat) ≤ _; decide) rfl
  have r3 := Reach.ok (c := .setMboz 4) r2 (by show (1 : Int) ≤ 4; decide) rfl
  have r4 := Reach.ok (c := .setNboz 1) r3 (by show (0 : Int) ≤ 1; decide) rfl
  obtain ⟨s4, h4, r4', hl4, ha, hf, hns, hm, hn, hc, hsi⟩ : ∃ (s4 : St ℝ) (h4 : History),
      Reach disk h4 ⟨s4, disk⟩ ∧ h4.loaded = true ∧ s4.inp.asym = some false ∧ s4.inp.nfp = some 2 ∧
      s4.inp.ns_in = some 3 ∧ s4.inp.mboz = 4 ∧ s4.inp.nboz = 1 ∧
      s4.inp.compute_surfs = #[some 1, some 0] ∧ s4.inp.s_in = Vec.tab 3 (sinV 4) :=
    ⟨_, _, r4, rfl, ha, hf, hns, rfl, rfl, rfl, hsi⟩
  clear r1 r2 r3 r4
  obtain ⟨s5, l5, p5, ei, hsb, hbm⟩ := Ex.views_run (m := 4) (x := 1) (y := 0) hneg r4' hl4 ha hf hns hm
    (.inl rfl) hn (by decide) (by decide) hc
  have r5 := Reach.ok r4' l5 p5
  rw [hsi, hc] at hsb
  have hneq : (sinV 4 1 : ℝ) ≠ sinV 4 0 := by
    show ((1 : Int) : ℝ) / (((4 : Int) : ℝ) - ((1 : Int) : ℝ)) * ((((1 : Nat) : Int) : ℝ) + 1 / 2) ≠
      ((1 : Int) : ℝ) / (((4 : Int) : ℝ) - ((1 : Int) : ℝ)) * ((((0 : Nat) : Int) : ℝ) + 1 / 2)
    norm_num
  have hcount : ∀ (t : St ℝ) (f : Nat → ℝ), t.out.s_b = Vec.tab 2 f →
      Attr.s_b.count t = 2 ∧ (Attr.s_b.block t).rows = 2 ∧ (Attr.s_b.block t).cols = 1 ∧
      (Attr.s_b.block t).cells[0 + 2 * 0]? = some (some (.inl (f 0))) := by
    intro t f e
    unfold Attr.count Attr.block Block.vec
    rw [e]
    refine ⟨?_, Vec.size_tab _ _, rfl, ?_⟩
    · simp [Vec.tab]
    · simp [Vec.tab]
  obtain ⟨c5, k5, k5', k5''⟩ := hcount s5 _ hsb
  refine ⟨disk, _, ⟨⟨s5, disk⟩, fun _ => 0⟩, r5, rfl, ?_, ?_⟩
  · obtain ⟨s6, p6, e6⟩ : ∃ s6 : St ℝ, perform (.setSurfs [0, 1]) ⟨s5, disk⟩ = .ok () ⟨s6, disk⟩ ∧
        s6 = { s5 with inp := { s5.inp with compute_surfs := #[some 0, some 1] } } := ⟨_, rfl, rfl⟩
    have l6 : Legal (h4.after .run true) (⟨s5, disk⟩ : Sess ℝ) (.setSurfs [0, 1]) := by
      show (2 : Nat) ≤ _; decide
    have r6 := Reach.ok r5 l6 p6
    obtain ⟨s7, l7, p7, -, hsb7, -⟩ := Ex.views_run (m := 4) (x := 0) (y := 1) hneg r6 hl4
      (by rw [e6]; show s5.inp.asym = _; rw [ei]; exact ha)
      (by rw [e6]; show s5.inp.nfp = _; rw [ei]; exact hf)
      (by rw [e6]; show s5.inp.ns_in = _; rw [ei]; exact hns)
      (by rw [e6]; show s5.inp.mboz = _; rw [ei]; exact hm)
      (.inl rfl) (by rw [e6]; show s5.inp.nboz = _; rw [ei]; exact hn) (by decide) (by decide) (by rw [e6]; rfl)
    have es : s6.inp.s_in = Vec.tab 3 (sinV 4) := by rw [e6]; show s5.inp.s_in = _; rw [ei]; exact hsi
    have ec : s6.inp.compute_surfs = #[some 0, some 1] := by rw [e6]
    rw [es, ec] at hsb7
    obtain ⟨c7, k7, k7', k7''⟩ := hcount s7 _ hsb7
    have c6 : Attr.s_b.count s6 = 2 := by rw [e6]; exact c5
    have q1 := step_of (w := ⟨⟨s5, disk⟩, fun _ => 0⟩) p6
    have q2 := step_of (w := VSess.moved ⟨⟨s5, disk⟩, fun _ => 0⟩ ⟨s6, disk⟩) p7
    have P := (C81_partial (⟨⟨s5, disk⟩, fun _ => 0⟩ : VSess ℝ) .s_b).2.1
    refine ⟨_, _, l6, q1, l7, q2, sinV 4 1, sinV 4 0, hneq, ?_, ?_⟩
    · refine P _ (.refl rfl) 0 0 _ ?_ ?_ ?_
      · show 0 < (Attr.s_b.block s5).rows
        rw [k5]; decide
      · show 0 < (Attr.s_b.block s5).cols
        rw [k5']; decide
      · show (Attr.s_b.block s5).cells[0 + (Attr.s_b.block s5).rows * 0]? = _
        rw [k5]; exact k5''
    · refine P _ (.ok (.ok (.refl rfl) trivial q1 (c6.trans c5.symm)) trivial q2 (c7.trans c5.symm)) 0 0 _ ?_ ?_ ?_
      · show 0 < (Attr.s_b.block s5).rows
        rw [k5]; decide
      · show 0 < (Attr.s_b.block s5).cols
        rw [k5']; decide
      · show (Attr.s_b.block s7).cells[0 + (Attr.s_b.block s5).rows * 0]? = _
        rw [k5]; exact k7''
  · obtain ⟨s6, p6, e6⟩ : ∃ s6 : St ℝ, perform (.setMboz 5) ⟨s5, disk⟩ = .ok () ⟨s6, disk⟩ ∧
        s6 = { s5 with inp := { s5.inp with mboz := 5 } } := ⟨_, rfl, rfl⟩
    have l6 : Legal (h4.after .run true) (⟨s5, disk⟩ : Sess ℝ) (.setMboz 5) := by
      show (1 : Int) ≤ _; decide
    have r6 := Reach.ok r5 l6 p6
    obtain ⟨s7, l7, p7, -, -, hbm7⟩ := Ex.views_run (m := 5) (x := 1) (y := 0) hneg r6 hl4
      (by rw [e6]; show s5.inp.asym = _; rw [ei]; exact ha)
      (by rw [e6]; show s5.inp.nfp = _; rw [ei]; exact hf)
      (by rw [e6]; show s5.inp.ns_in = _; rw [ei]; exact hns)
      (by rw [e6]; rfl)
      (.inr rfl) (by rw [e6]; show s5.inp.nboz = _; rw [ei]; exact hn) (by decide) (by decide)
      (by rw [e6]; show s5.inp.compute_surfs = _; rw [ei]; exact hc)
    have q1 := step_of (w := ⟨⟨s5, disk⟩, fun _ => 0⟩) p6
    have q2 := step_of (w := VSess.moved ⟨⟨s5, disk⟩, fun _ => 0⟩ ⟨s6, disk⟩) p7
    have P := C81_partial (⟨⟨s5, disk⟩, fun _ => 0⟩ : VSess ℝ) .bmnc_b
    obtain ⟨x, hx⟩ := hbm.2.2.2 0 (by decide)
    refine ⟨_, _, l6, q1, l7, q2, ⟨x, ?_⟩, ?_⟩
    · refine P.2.1 _ (.refl rfl) 0 0 _ ?_ ?_ ?_
      · show 0 < s5.out.spec.bmnc_b.rows
        rw [hbm.1]; decide
      · show 0 < s5.out.spec.bmnc_b.cols
        rw [hbm.2.1]; decide
      · show (s5.out.spec.bmnc_b.data.map (Option.map Sum.inl))[0 + s5.out.spec.bmnc_b.rows * 0]? = _
        simp [hx]
    · refine P.2.2 _ _ (.ok (.ok (.refl trivial) trivial q1 trivial) trivial q2 trivial) ?_ (.refl trivial) 0 0 ?_ ?_
      · show (s7.out.spec.bmnc_b.data.map (Option.map Sum.inl)).size ≠
          (s5.out.spec.bmnc_b.data.map (Option.map Sum.inl)).size
        rw [Array.size_map, Array.size_map, hbm.2.2.1, hbm7.2.2.1]
        decide
      · show 0 < s5.out.spec.bmnc_b.rows
        rw [hbm.1]; decide
      · show 0 < s5.out.spec.bmnc_b.cols
        rw [hbm.2.1]; decide

/-- Programs as in the first part of `C81_partial`: changing `verbose` and then the resolution. -/
example (w : VSess α) : ∃ w', CallsTo (fun c => ¬ WritesOutputs c) (fun _ => True) w w' ∧
    w'.sess.obj.inp.mboz = 9 ∧ (w.take .bmnc_b).item w' 0 0 = (w.take .bmnc_b).item w 0 0 := by
  obtain ⟨w', hw, hm⟩ : ∃ w', CallsTo (fun c => ¬ WritesOutputs c) (fun _ => True) w w' ∧
      w'.sess.obj.inp.mboz = 9 := by
    have h1 : CallsTo (fun c => ¬ WritesOutputs c) (fun _ => True) w _ :=
      .ok (c := .setVerbose 0) (.refl trivial) id rfl trivial
    exact ⟨_, .ok (c := .setMboz 9) h1 id rfl trivial, rfl⟩
  exact ⟨w', hw, hm, (C81_partial w .bmnc_b).1 rfl w' hw 0 0⟩

end Booz
