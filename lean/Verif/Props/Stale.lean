import Verif.Spec.Stale
import Verif.Props.Malformed

/-!
# C101: values left over from an earlier equilibrium
-/

namespace Booz
open Spec
variable {α : Type} [Arith α]

theorem asInts_inv {v : NcVar α} {a : Vec Int} (h : v.asInts = .ok a) : ncInts v = some a := by
  unfold NcVar.asInts at h
  unfold ncInts
  cases hd : v.data with
  | ints b => rw [hd] at h; cases h; rfl
  | text b => rw [hd] at h; cases h
  | dbls b =>
    rw [hd] at h
    simp only at h ⊢
    split at h
    · rename_i hb
      cases h
      rw [if_pos]
      intro c hc x hx
      have := (Array.all_eq_true_iff_forall_mem.mp hb) c hc
      cases hx
      exact this
    · cases h

theorem asDbls_inv {v : NcVar α} {a : Vec α} (h : v.asDbls = .ok a) : ncDbls v = some a := by
  unfold NcVar.asDbls at h
  unfold ncDbls
  cases hd : v.data <;> rw [hd] at h <;> cases h <;> rfl

omit [Arith α] in
theorem find_inv {f : NcFile α} {n : String} {v : NcVar α} (h : f.find n = .ok v) : f.var? n = some v := by
  unfold NcFile.find at h
  cases hv : f.var? n with
  | none => rw [hv] at h; cases h
  | some u => rw [hv] at h; cases h; rfl

theorem blit_inv {β : Type} {src buf new : Vec β} (h : blit src buf = .ok new) : StoredOver src buf new := by
  unfold blit at h
  split at h
  · rename_i hs
    cases h
    refine ⟨?_, hs, fun i hi => ?_, fun i hi => ?_⟩
    · simp; omega
    · rw [Array.getElem?_append_left hi]
    · rw [Array.getElem?_append_right hi]
      rw [Array.getElem?_extract]
      split
      · congr 1; omega
      · rw [Array.getElem?_eq_none]; omega
  · cases h

theorem storedOver_one {β : Type} {src : Vec β} {x : Option β} {new : Vec β} (h : StoredOver src #[x] new) :
    StoredOver src #[x] #[new[0]?.join] := by
  have hs := h.size
  have e : new = #[new[0]?.join] := by
    obtain ⟨y, rfl⟩ := Array.size_eq_one_iff.mp hs
    simp
  rw [← e]
  exact h

theorem getInt_from {f : NcFile α} {n : String} {old new : Option Int} (h : f.getInt n old = .ok new) :
    IntsFrom f n #[old] #[new] := by
  unfold NcFile.getInt at h
  obtain ⟨v, h1, h⟩ := bind_ok h
  obtain ⟨a, h2, h⟩ := bind_ok h
  obtain ⟨b, h3, h⟩ := bind_ok h
  cases h
  exact ⟨v, a, find_inv h1, asInts_inv h2, storedOver_one (blit_inv h3)⟩

theorem getDbl_from {f : NcFile α} {n : String} {old new : Option α} (h : f.getDbl n old = .ok new) :
    DblsFrom f n #[old] #[new] := by
  unfold NcFile.getDbl at h
  obtain ⟨v, h1, h⟩ := bind_ok h
  obtain ⟨a, h2, h⟩ := bind_ok h
  obtain ⟨b, h3, h⟩ := bind_ok h
  cases h
  exact ⟨v, a, find_inv h1, asDbls_inv h2, storedOver_one (blit_inv h3)⟩

theorem getIVec_from {f : NcFile α} {n : String} {old new : Vec Int} (h : f.getIVec n old = .ok new) :
    IntsFrom f n old new := by
  unfold NcFile.getIVec at h
  obtain ⟨v, h1, h⟩ := bind_ok h
  obtain ⟨_, _, h⟩ := bind_ok h
  obtain ⟨a, h2, h⟩ := bind_ok h
  exact ⟨v, a, find_inv h1, asInts_inv h2, blit_inv h⟩

theorem resize_inv {β : Type} {v w : Vec β} {n : Int} (h : v.resize n = .ok w) : 0 ≤ n ∧ w = resized v n.toNat := by
  unfold Vec.resize at h
  split at h
  · rename_i hn
    cases h
    exact ⟨hn, rfl⟩
  · cases h

/-- The mode lists and scalars are not changed by `init_from_vmec`. -/
theorem load_keeps {ns n : Int} {A : VmecArgs α} {I : Inputs α} {F : Flux α} {r : Inputs α × Flux α}
    (h : load ns n A I F = .ok r) : r.1.nfp = I.nfp ∧ r.1.mpol = I.mpol ∧ r.1.ntor = I.ntor ∧ r.1.mnmax = I.mnmax ∧
      r.1.mnmax_nyq = I.mnmax_nyq ∧ r.1.aspect = I.aspect ∧ r.1.xm = I.xm ∧ r.1.xn = I.xn ∧ r.1.xm_nyq = I.xm_nyq ∧
      r.1.xn_nyq = I.xn_nyq := by
  unfold load at h
  repeat' (obtain ⟨_, _, h⟩ := bind_ok h)
  cases h
  exact ⟨rfl, rfl, rfl, rfl, rfl, rfl, rfl, rfl, rfl, rfl⟩

theorem need_inv {β : Type} {o : Option β} {w : String} {x : β} (h : need o w = .ok x) : o = some x := by
  cases o with
  | none => cases h
  | some y => cases h; rfl

/-- What the first half of `read_wout` leaves in the object. -/
theorem readWoutBody_over {f : NcFile α} {flux : Bool} {s t : St α} {p : Int × VmecArgs α}
    (h : readWoutBody f flux s = .ok p t) :
    ∃ k q : Nat, t.inp.mnmax = some (k : Int) ∧ t.inp.mnmax_nyq = some (q : Int) ∧ ReadOver f s.inp t.inp k q := by
  unfold readWoutBody at h
  obtain ⟨x0, g0, h⟩ := lift_bind_inv h
  obtain ⟨_, g1, h⟩ := setInp_bind_inv h
  obtain ⟨_, fg1, e⟩ := bind_ok g1
  cases e
  obtain ⟨x2, g2, h⟩ := lift_bind_inv h
  obtain ⟨_, g3, h⟩ := setInp_bind_inv h
  obtain ⟨_, fg3, e⟩ := bind_ok g3
  cases e
  obtain ⟨_, g4, h⟩ := setInp_bind_inv h
  obtain ⟨_, fg4, e⟩ := bind_ok g4
  cases e
  obtain ⟨_, g5, h⟩ := setInp_bind_inv h
  obtain ⟨_, fg5, e⟩ := bind_ok g5
  cases e
  obtain ⟨_, g6, h⟩ := setInp_bind_inv h
  obtain ⟨m, fg6, e⟩ := bind_ok g6
  cases e
  obtain ⟨_, g7, h⟩ := setInp_bind_inv h
  obtain ⟨m', fg7, e⟩ := bind_ok g7
  cases e
  obtain ⟨_, g8, h⟩ := setInp_bind_inv h
  obtain ⟨_, fg8, e⟩ := bind_ok g8
  cases e
  obtain ⟨fl, g9, h⟩ := lift_bind_inv h
  obtain ⟨io, g10, h⟩ := lift_bind_inv h
  obtain ⟨_, g11, h⟩ := setInp_bind_inv h
  obtain ⟨k, n11, g11⟩ := bind_ok g11
  have n11 : m = some k := need_inv n11
  subst n11
  obtain ⟨v11, r11, e⟩ := bind_ok g11
  have e11 : 0 ≤ k ∧ v11 = resized s.inp.xm k.toNat := resize_inv r11
  cases e
  obtain ⟨_, g12, h⟩ := setInp_bind_inv h
  simp only [need_some, ok_bind] at g12
  obtain ⟨v12, r12, e⟩ := bind_ok g12
  have e12 : 0 ≤ k ∧ v12 = resized s.inp.xn k.toNat := resize_inv r12
  cases e
  obtain ⟨_, g13, h⟩ := setInp_bind_inv h
  obtain ⟨v13, fg13, e⟩ := bind_ok g13
  have i13 : IntsFrom f "xm" v11 v13 := getIVec_from fg13
  rw [e11.2] at i13
  cases e
  obtain ⟨_, g14, h⟩ := setInp_bind_inv h
  obtain ⟨v14, fg14, e⟩ := bind_ok g14
  have i14 : IntsFrom f "xn" v12 v14 := getIVec_from fg14
  rw [e12.2] at i14
  cases e
  obtain ⟨_, g15, h⟩ := setInp_bind_inv h
  obtain ⟨q, n15, g15⟩ := bind_ok g15
  have n15 : m' = some q := need_inv n15
  subst n15
  obtain ⟨v15, r15, e⟩ := bind_ok g15
  have e15 : 0 ≤ q ∧ v15 = resized s.inp.xm_nyq q.toNat := resize_inv r15
  cases e
  obtain ⟨_, g16, h⟩ := setInp_bind_inv h
  simp only [need_some, ok_bind] at g16
  obtain ⟨v16, r16, e⟩ := bind_ok g16
  have e16 : 0 ≤ q ∧ v16 = resized s.inp.xn_nyq q.toNat := resize_inv r16
  cases e
  obtain ⟨_, g17, h⟩ := setInp_bind_inv h
  obtain ⟨v17, fg17, e⟩ := bind_ok g17
  have i17 : IntsFrom f "xm_nyq" v15 v17 := getIVec_from fg17
  rw [e15.2] at i17
  cases e
  obtain ⟨_, g18, h⟩ := setInp_bind_inv h
  obtain ⟨v18, fg18, e⟩ := bind_ok g18
  have i18 : IntsFrom f "xn_nyq" v16 v18 := getIVec_from fg18
  rw [e16.2] at i18
  cases e
  obtain ⟨_, g19, h⟩ := setInp_bind_inv h
  simp only [need_some, ok_bind] at g19
  obtain ⟨_, _, g19⟩ := bind_ok g19
  obtain ⟨_, _, e⟩ := bind_ok g19
  cases e
  obtain ⟨_, g20, h⟩ := setInp_bind_inv h
  simp only [need_some, ok_bind] at g20
  obtain ⟨_, _, g20⟩ := bind_ok g20
  obtain ⟨_, _, g20⟩ := bind_ok g20
  obtain ⟨_, _, g20⟩ := bind_ok g20
  obtain ⟨_, _, e⟩ := bind_ok g20
  cases e
  rw [Prog.get_bind] at h
  obtain ⟨a, g21, h⟩ := lift_bind_inv h
  obtain ⟨as, g22, h⟩ := lift_bind_inv h
  obtain ⟨b, g23, h⟩ := lift_bind_inv h
  obtain ⟨nn, g24, h⟩ := lift_bind_inv h
  cases h
  exact ⟨k.toNat, q.toNat, by simp [e11.1], by simp [e15.1],
    ⟨getInt_from fg3, getInt_from fg4, getInt_from fg5, getInt_from fg6, getInt_from fg7, getDbl_from fg8,
      i13, i14, i17, i18⟩⟩

/-- `init_from_vmec` changes none of the scalars and mode lists. -/
theorem vmec_keeps {ns : Int} {A : VmecArgs α} {s s' : St α} {u : Unit} (h : initFromVmec ns A s = .ok u s') :
    ∃ r : Inputs α × Flux α, ∃ n, load ns n A { s.inp with ns_in := some n } s.flux = .ok r ∧ s'.inp = r.1 := by
  unfold initFromVmec at h
  rw [Prog.get_bind] at h
  obtain ⟨n, _, h⟩ := lift_bind_inv h
  rw [Prog.set_bind, Prog.get_bind] at h
  obtain ⟨_, _, h⟩ := lift_bind_inv h
  obtain ⟨r, hr, h⟩ := lift_bind_inv h
  cases h
  exact ⟨r, n, hr, rfl⟩

theorem readOver_of_eq {f : NcFile α} {I J K : Inputs α} {k q : Nat} (h : ReadOver f I J k q)
    (e : K.nfp = J.nfp ∧ K.mpol = J.mpol ∧ K.ntor = J.ntor ∧ K.mnmax = J.mnmax ∧ K.mnmax_nyq = J.mnmax_nyq ∧
      K.aspect = J.aspect ∧ K.xm = J.xm ∧ K.xn = J.xn ∧ K.xm_nyq = J.xm_nyq ∧ K.xn_nyq = J.xn_nyq) :
    ReadOver f I K k q := by
  obtain ⟨e1, e2, e3, e4, e5, e6, e7, e8, e9, e10⟩ := e
  exact ⟨e1 ▸ h.nfp, e2 ▸ h.mpol, e3 ▸ h.ntor, e4 ▸ h.mnmax, e5 ▸ h.mnmax_nyq, e6 ▸ h.aspect, e7 ▸ h.xm, e8 ▸ h.xn,
    e9 ▸ h.xm_nyq, e10 ▸ h.xn_nyq⟩

/-- **C101, what is left over.**  When `read_wout` returns, each scalar and each mode list of the object consists of
the values of the variable in the file, followed by what the object held before in those places, if its list had the
length the file declares; nothing is assumed about the file. -/
theorem C101_stale {disk : Disk α} {path : String} {f : NcFile α} {flux : Bool} {s s' : St α}
    (hd : disk path = .nc f) (h : readWout disk path flux s = .ok () s') :
    ∃ k q : Nat, s'.inp.mnmax = some (k : Int) ∧ s'.inp.mnmax_nyq = some (q : Int) ∧
      ReadOver f s.inp s'.inp k q := by
  unfold readWout at h
  obtain ⟨f', hf, h⟩ := lift_bind_inv h
  have : f' = f := by
    unfold openRead at hf
    rw [hd] at hf
    cases hf; rfl
  subst this
  obtain ⟨p, t, h1, h2⟩ := prog_bind_ok h
  obtain ⟨k, q, e1, e2, h3⟩ := readWoutBody_over h1
  obtain ⟨r, n, hr, e⟩ := vmec_keeps h2
  have hk := load_keeps hr
  rw [← e] at hk
  exact ⟨k, q, hk.2.2.2.1.trans e1, hk.2.2.2.2.1.trans e2, readOver_of_eq h3 hk⟩

theorem storedOver_all {β : Type} {src old new : Vec β} (h : StoredOver src old new) (hs : src.size = old.size) :
    new = src := by
  refine Array.ext_getElem? fun i => ?_
  by_cases hi : i < src.size
  · exact h.fresh i hi
  · rw [Array.getElem?_eq_none (by have := h.size; omega), Array.getElem?_eq_none (by omega)]

theorem storedOver_unique {β : Type} {src old new new' : Vec β} (h : StoredOver src old new)
    (h' : StoredOver src old new') : new = new' := by
  refine Array.ext_getElem? fun i => ?_
  by_cases hi : i < src.size
  · rw [h.fresh i hi, h'.fresh i hi]
  · rw [h.kept i (by omega), h'.kept i (by omega)]

theorem blit_stored {β : Type} {src buf new : Vec β} (h : StoredOver src buf new) : blit src buf = .ok new := by
  have e : blit src buf = .ok (src ++ buf.extract src.size) := by
    unfold blit
    rw [if_pos h.fits]
  have h' := blit_inv e
  rw [e, storedOver_unique h h']

theorem ncInts_count {v : NcVar α} {a : Vec Int} (h : ncInts v = some a) : a.size = valueCount v.data := by
  unfold ncInts at h
  unfold valueCount
  cases hd : v.data with
  | ints b => rw [hd] at h; cases h; rfl
  | text b => rw [hd] at h; cases h
  | dbls b =>
    rw [hd] at h
    simp only at h ⊢
    split at h
    · cases h; simp
    · cases h

theorem ncDbls_count {v : NcVar α} {a : Vec α} (h : ncDbls v = some a) : a.size = valueCount v.data := by
  unfold ncDbls at h
  unfold valueCount
  cases hd : v.data <;> rw [hd] at h <;> cases h <;> simp

theorem resized_size {β : Type} (v : Vec β) (n : Nat) : (resized v n).size = n := by
  unfold resized
  split
  · assumption
  · simp

theorem holds_of_from {f : NcFile α} {n : String} {old new : Vec Int} (h : IntsFrom f n old new)
    (he : entries f n = old.size) : IntsAre f n new := by
  obtain ⟨v, a, hv, ha, hs⟩ := h
  refine ⟨v, hv, ?_⟩
  rw [storedOver_all hs (by rw [ncInts_count ha, ← he, entries, hv]; rfl)]
  exact ha

theorem holdsD_of_from {f : NcFile α} {n : String} {old new : Vec α} (h : DblsFrom f n old new)
    (he : entries f n = old.size) : DblsAre f n new := by
  obtain ⟨v, a, hv, ha, hs⟩ := h
  refine ⟨v, hv, ?_⟩
  rw [storedOver_all hs (by rw [ncDbls_count ha, ← he, entries, hv]; rfl)]
  exact ha

/-- **C101, complete files.**  If the scalars and mode lists in the file have as many values as they ought to have,
then after `read_wout` has returned those of the object are the file's, whatever the object held before. -/
theorem C101_partial {disk : Disk α} {path : String} {f : NcFile α} {z : WoutSizes} {flux : Bool} {s s' : St α}
    (hd : disk path = .nc f) (hz : WoutScalars f z)
    (hc : ∀ n ∈ ["nfp", "mpol", "ntor", "mnmax", "mnmax_nyq", "aspect", "xm", "xn", "xm_nyq", "xn_nyq"],
      entries f n = woutRoom z n)
    (h : readWout disk path flux s = .ok () s') : FromFile f s'.inp := by
  obtain ⟨k, q, hk, hq, R⟩ := C101_stale hd h
  have h1 := holds_of_from R.mnmax (hc _ (by simp))
  have h2 := holds_of_from R.mnmax_nyq (hc _ (by simp))
  have ek : z.mnmax.toNat = k := by
    obtain ⟨v, hv, hn⟩ := h1
    have := (hz.mnmax v hv).symm.trans hn
    rw [hk] at this
    have : z.mnmax = (k : Int) := by simpa using this
    omega
  have eq : z.mnmax_nyq.toNat = q := by
    obtain ⟨v, hv, hn⟩ := h2
    have := (hz.mnmax_nyq v hv).symm.trans hn
    rw [hq] at this
    have : z.mnmax_nyq = (q : Int) := by simpa using this
    omega
  refine ⟨holds_of_from R.nfp (hc _ (by simp)), holds_of_from R.mpol (hc _ (by simp)),
    holds_of_from R.ntor (hc _ (by simp)), h1, h2, holdsD_of_from R.aspect (hc _ (by simp)),
    holds_of_from R.xm ?_, holds_of_from R.xn ?_, holds_of_from R.xm_nyq ?_, holds_of_from R.xn_nyq ?_⟩
  · rw [resized_size, ← ek]; exact hc _ (by simp)
  · rw [resized_size, ← ek]; exact hc _ (by simp)
  · rw [resized_size, ← eq]; exact hc _ (by simp)
  · rw [resized_size, ← eq]; exact hc _ (by simp)

section
variable {f g : NcFile α} {n : String}

theorem getInt_same (h : f.var? n = g.var? n) (x : Option Int) : f.getInt n x = g.getInt n x := by
  unfold NcFile.getInt NcFile.find; rw [h]
theorem getDbl_same (h : f.var? n = g.var? n) (x : Option α) : f.getDbl n x = g.getDbl n x := by
  unfold NcFile.getDbl NcFile.find; rw [h]
theorem getVec_same (h : f.var? n = g.var? n) (x : Vec α) : f.getVec n x = g.getVec n x := by
  unfold NcFile.getVec NcFile.find; rw [h]
theorem getIVec_same (h : f.var? n = g.var? n) (x : Vec Int) : f.getIVec n x = g.getIVec n x := by
  unfold NcFile.getIVec NcFile.find; rw [h]
theorem getMat_same (h : f.var? n = g.var? n) (x : Mat α) : f.getMat n x = g.getMat n x := by
  unfold NcFile.getMat NcFile.find; rw [h]

theorem readFlux_same (h : AgreeBut "xn" f g) (b : Bool) (k : Option Int) : readFlux f b k = readFlux g b k := by
  unfold readFlux
  simp only [getVec_same (h "chi" (by decide)), getVec_same (h "phipf" (by decide)),
    getVec_same (h "pres" (by decide)), getVec_same (h "phi" (by decide))]

theorem readMats_same (h : AgreeBut "xn" f g) {a b c d e i : String} (j k l : Option Int)
    (ha : a ≠ "xn") (hb : b ≠ "xn") (hc : c ≠ "xn") (hd : d ≠ "xn") (he : e ≠ "xn") (hi : i ≠ "xn") :
    readMats f j k l a b c d e i = readMats g j k l a b c d e i := by
  unfold readMats
  simp only [getMat_same (h a ha), getMat_same (h b hb), getMat_same (h c hc), getMat_same (h d hd),
    getMat_same (h e he), getMat_same (h i hi)]
end

theorem lift_congr {σ β γ : Type} {r : Res β} {k k' : β → Prog σ γ} {s : σ}
    (h : ∀ y, r = .ok y → k y s = k' y s) : (Prog.lift r >>= k) s = (Prog.lift r >>= k') s := by
  cases r with
  | ok y => rw [Prog.lift_ok_bind, Prog.lift_ok_bind, h y rfl]
  | error e => cases e <;> rfl

omit [Arith α] in
theorem setInp_congr {β : Type} {p p' : Inputs α → Res (Inputs α)} {k k' : Unit → Prog (St α) β} {s : St α}
    (e : p s.inp = p' s.inp) (h : ∀ t : St α, p s.inp = .ok t.inp → k () t = k' () t) :
    (setInp p >>= k) s = (setInp p' >>= k') s := by
  unfold setInp Prog.modify
  simp only [Prog.bind_def, Prog.get, Prog.lift, ← e]
  cases he : p s.inp with
  | error x => cases x <;> rfl
  | ok I => exact h { s with inp := I } he

/-- Reading two files that differ in `xn` only, when the difference disappears in what the object holds. -/
theorem readWoutBody_same {f g : NcFile α} {k : Nat} {s : St α} (flux : Bool) (h : AgreeBut "xn" f g)
    (hm : ScalarIs f "mnmax" k) (hx : f.getIVec "xn" (resized s.inp.xn k) = g.getIVec "xn" (resized s.inp.xn k)) :
    readWoutBody f flux s = readWoutBody g flux s := by
  have hI {n : String} (hn : n ≠ "xn") := getInt_same (h n hn)
  have hL {n : String} (hn : n ≠ "xn") := getIVec_same (h n hn)
  unfold readWoutBody
  simp only [hI (n := "lasym__logical__") (by decide), hI (n := "ns") (by decide), hI (n := "nfp") (by decide),
    hI (n := "mpol") (by decide), hI (n := "ntor") (by decide), hI (n := "mnmax_nyq") (by decide),
    getDbl_same (h "aspect" (by decide)), readFlux_same h, getVec_same (h "iotas" (by decide)),
    hL (n := "xm") (by decide), hL (n := "xm_nyq") (by decide), hL (n := "xn_nyq") (by decide)]
  simp only [fun a b c => readMats_same h a b c (a := "rmnc") (b := "zmns") (c := "lmns") (d := "bmnc")
    (e := "bsubumnc") (i := "bsubvmnc") (by decide) (by decide) (by decide) (by decide) (by decide) (by decide),
    fun a b c => readMats_same h a b c (a := "rmns") (b := "zmnc") (c := "lmnc") (d := "bmns")
    (e := "bsubumns") (i := "bsubvmns") (by decide) (by decide) (by decide) (by decide) (by decide) (by decide)]
  refine lift_congr fun x0 _ => setInp_congr rfl fun t1 g1 => ?_
  have h1 : t1.inp.xn = s.inp.xn := by
    obtain ⟨_, _, e⟩ := bind_ok g1
    injection e with e
    rw [← e]
  refine lift_congr fun x2 _ => setInp_congr rfl fun t3 g3 => ?_
  have h3 : t3.inp.xn = s.inp.xn := by
    obtain ⟨_, _, e⟩ := bind_ok g3
    injection e with e
    rw [← e, ← h1]
  refine setInp_congr rfl fun t4 g4 => ?_
  have h4 : t4.inp.xn = s.inp.xn := by
    obtain ⟨_, _, e⟩ := bind_ok g4
    injection e with e
    rw [← e, ← h3]
  refine setInp_congr rfl fun t5 g5 => ?_
  have h5 : t5.inp.xn = s.inp.xn := by
    obtain ⟨_, _, e⟩ := bind_ok g5
    injection e with e
    rw [← e, ← h4]
  refine setInp_congr (by simp only [hI (n := "mnmax") (by decide)]) fun t6 g6 => ?_
  have h6 : t6.inp.xn = s.inp.xn ∧ t6.inp.mnmax = some (k : Int) := by
    obtain ⟨m, g6', e⟩ := bind_ok g6
    have := getInt_scalar hm g6'
    injection e with e
    rw [← e, ← h5]
    exact ⟨rfl, this⟩
  refine setInp_congr rfl fun t7 g7 => ?_
  have h7 : t7.inp.xn = s.inp.xn ∧ t7.inp.mnmax = some (k : Int) := by
    obtain ⟨_, _, e⟩ := bind_ok g7
    injection e with e
    rw [← e]
    exact h6
  refine setInp_congr rfl fun t8 g8 => ?_
  have h8 : t8.inp.xn = s.inp.xn ∧ t8.inp.mnmax = some (k : Int) := by
    obtain ⟨_, _, e⟩ := bind_ok g8
    injection e with e
    rw [← e]
    exact h7
  refine lift_congr fun fl _ => lift_congr fun io _ => setInp_congr rfl fun t11 g11 => ?_
  have h11 : t11.inp.xn = s.inp.xn ∧ t11.inp.mnmax = some (k : Int) := by
    obtain ⟨_, _, g11⟩ := bind_ok g11
    obtain ⟨_, _, e⟩ := bind_ok g11
    injection e with e
    rw [← e]
    exact h8
  refine setInp_congr rfl fun t12 g12 => ?_
  have h12 : t12.inp.xn = resized s.inp.xn k := by
    obtain ⟨j, hj, g12⟩ := bind_ok g12
    obtain ⟨v, r12, e⟩ := bind_ok g12
    have hj := (need_inv hj).symm.trans h11.2
    injection hj with hj
    have hv := (resize_inv r12).2
    rw [h11.1, hj, Int.toNat_natCast] at hv
    injection e with e
    rw [← e]
    exact hv
  refine setInp_congr rfl fun t13 g13 => ?_
  have h13 : t13.inp.xn = resized s.inp.xn k := by
    obtain ⟨_, _, e⟩ := bind_ok g13
    injection e with e
    rw [← e]
    exact h12
  exact setInp_congr (by rw [h13, hx]) fun t14 _ => rfl

theorem getIVec_stored {f : NcFile α} {n : String} {v : NcVar α} {a old new : Vec Int} (hv : f.var? n = some v)
    (ha : ncInts v = some a) (h : StoredOver a old new) :
    f.getIVec n old = (do first old; .ok new) := by
  unfold NcFile.getIVec NcFile.find
  rw [hv]
  show (do first old; let b ← v.asInts; blit b old) = _
  rw [asInts_of ha]
  simp only [ok_bind, blit_stored h]

/-- **C101, the left-over values are used.**  Let two files differ only in `xn`, and let the values in the one file,
completed by the values that the object has in the remaining places, be those of the other.  Then `read_wout` does not
distinguish the files: it loads the same data from both. -/
theorem C101_leftover {disk disk' : Disk α} {path path' : String} {f g : NcFile α} {k : Nat} {u v : NcVar α}
    {a b : Vec Int} (flux : Bool) {s : St α} (hd : disk path = .nc f) (hd' : disk' path' = .nc g)
    (h : AgreeBut "xn" f g) (hm : ScalarIs f "mnmax" k) (hf : f.var? "xn" = some u) (ha : ncInts u = some a)
    (hg : g.var? "xn" = some v) (hb : ncInts v = some b) (hs : s.inp.xn.size = k) {c : Vec Int}
    (h1 : StoredOver a s.inp.xn c) (h2 : StoredOver b s.inp.xn c) :
    readWout disk path flux s = readWout disk' path' flux s := by
  have hr : resized s.inp.xn k = s.inp.xn := if_pos hs
  have e := readWoutBody_same (s := s) flux h hm (by
    rw [hr, getIVec_stored hf ha h1, getIVec_stored hg hb h2])
  unfold readWout openRead
  rw [hd, hd']
  simp only [Prog.lift_ok_bind]
  rw [Prog.bind_def, Prog.bind_def, e]

/-- The example file with two of the three values of `xn`, which has a dimension of its own. -/
def Ex.shortXn : NcFile α := { Ex.patched (α := α) (Ex.ivs "xn" "short" [0, 2]) with
  dims := ("short", 2) :: (Ex.wout (α := α) 0).dims }

theorem Ex.short_xn : (Ex.shortXn (α := α)).var? "xn" = some (Ex.ivs "xn" "short" [0, 2]) :=
  Ex.patched_same (Ex.ivs "xn" "short" [0, 2])

theorem Ex.short_other : AgreeBut "xn" (Ex.wout (α := α) 0) Ex.shortXn := fun _ hm =>
  (Ex.patched_other (Ex.ivs "xn" "short" [0, 2]) hm).symm

theorem Ex.wout_xn : (Ex.wout (α := α) 0).var? "xn" = some (Ex.ivs "xn" "mn_mode" [0, 2, 2]) :=
  Ex.wvar 0 14 rfl rfl

theorem Ex.wout_vst_loads : ∃ s', readWout (Ex.woutDisk (α := α) 0) "wout.nc" true (Ex.vst true) = .ok () s' := by
  rw [C39_loads true (Ex.vst true) (by simp [Ex.woutDisk]) (Ex.shapes 0) (Ex.wout_present 0 _ _)]
  refine ⟨_, vmec_ok (z := Ex.sizes false) (by decide) ?_ (Ex.computable false) ?_ ?_⟩
  · rw [Ex.wout_args, Ex.wout_inp]; exact Ex.sym_given (Ex.lists true).surfs
  · rw [Ex.wout_args, Ex.wout_inp]; exact Ex.sym_consistent (Ex.consistent (α := α) true).surfs
  · rw [Ex.wout_args, Ex.wout_inp]; exact Ex.sym_loadable (by show (1 : Int) ≤ 1; decide)

theorem Ex.wout_scalars : WoutScalars (Ex.wout (α := α) 0) (Ex.woutZ 0) :=
  have hz := Ex.shapes (α := α) 0
  ⟨hz.lasym, hz.ns, hz.nfp, hz.mpol, hz.ntor, hz.mnmax, hz.mnmax_nyq⟩

theorem Ex.wout_complete :
    ∀ n ∈ ["nfp", "mpol", "ntor", "mnmax", "mnmax_nyq", "aspect", "xm", "xn", "xm_nyq", "xn_nyq"],
    entries (Ex.wout (α := α) 0) n = woutRoom (Ex.woutZ 0) n := by
  have he (i : Nat) {v : NcVar α} {n : String} (h : (Ex.wout (α := α) 0).vars[i]? = some v) (hn : v.name = n) :
      entries (Ex.wout (α := α) 0) n = valueCount v.data := by
    rw [entries, Ex.wvar 0 i h hn]; rfl
  intro n hn
  simp only [List.mem_cons, List.not_mem_nil, or_false] at hn
  rcases hn with rfl | rfl | rfl | rfl | rfl | rfl | rfl | rfl | rfl | rfl
  · exact he 2 rfl rfl
  · exact he 3 rfl rfl
  · exact he 4 rfl rfl
  · exact he 5 rfl rfl
  · exact he 6 rfl rfl
  · exact he 7 rfl rfl
  · exact he 13 rfl rfl
  · exact he 14 rfl rfl
  · exact he 15 rfl rfl
  · exact he 16 rfl rfl

/-- The hypotheses of `C101_partial` are met by the example file. -/
example : ∃ s', readWout (Ex.woutDisk (α := α) 0) "wout.nc" true (Ex.vst true) = .ok () s' ∧
    FromFile (Ex.wout (α := α) 0) s'.inp := by
  obtain ⟨s', h⟩ := Ex.wout_vst_loads (α := α)
  exact ⟨s', h, C101_partial (by simp [Ex.woutDisk]) Ex.wout_scalars Ex.wout_complete h⟩

/-- The file with a short `xn` loads like the complete file into an object that held the complete list. -/
theorem Ex.short_loads : readWout (fun _ => .nc (Ex.shortXn (α := α))) "wout.nc" true (Ex.vst true) =
    readWout (Ex.woutDisk (α := α) 0) "wout.nc" true (Ex.vst true) := by
  refine (C101_leftover (k := 3) (c := Ex.vec [0, 2, 2]) true (by simp [Ex.woutDisk] : _ = Content.nc (Ex.wout 0)) rfl
    Ex.short_other (Ex.shapes 0).mnmax Ex.wout_xn rfl Ex.short_xn rfl rfl
    ⟨rfl, Nat.le_refl _, fun _ _ => rfl, fun i hi => rfl⟩
    ⟨rfl, by show 2 ≤ 3; decide, fun i hi => ?_, fun i hi => rfl⟩).symm
  match i, hi with
  | 0, _ => rfl
  | 1, _ => rfl

/-- **C101 is false of the code**: a file with two of three values of `xn` loads without an error into an object that
held another equilibrium, and the third value is the one from before. -/
theorem C101_false : ∃ (disk : Disk α) (path : String) (f : NcFile α) (s s' : St α), disk path = .nc f ∧
    readWout disk path true s = .ok () s' ∧ entries f "xn" = 2 ∧ s'.inp.xn.size = 3 ∧ s.inp.xn.rdN 2 = .ok 2 ∧
    s'.inp.xn.rdN 2 = .ok 2 ∧ ¬ FromFile f s'.inp := by
  obtain ⟨s', h⟩ := Ex.wout_vst_loads (α := α)
  have h' := Ex.short_loads.trans h
  have hv := Ex.short_xn (α := α)
  have F := C101_partial (by simp [Ex.woutDisk]) Ex.wout_scalars Ex.wout_complete h
  have e : s'.inp.xn = Ex.vec [0, 2, 2] := by
    obtain ⟨v, hv, hn⟩ := F.xn
    cases Ex.wout_xn.symm.trans hv
    exact (Option.some.inj hn).symm
  refine ⟨fun _ => .nc Ex.shortXn, "wout.nc", Ex.shortXn, Ex.vst true, s', rfl, h', ?_, ?_, rfl, ?_, fun G => ?_⟩
  · rw [entries, hv]; rfl
  · rw [e]; rfl
  · rw [e]; rfl
  · obtain ⟨u, hu, hn⟩ := G.xn
    cases hv.symm.trans hu
    have := Option.some.inj hn
    rw [e] at this
    exact absurd (congrArg Array.size this) (by show ¬ 2 = 3; decide)

end Booz
