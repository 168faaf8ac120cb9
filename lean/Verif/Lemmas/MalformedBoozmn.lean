import Verif.Spec.MalformedBoozmn
import Verif.Lemmas.MalformedShort

/-!
# Reading boozmn files of any contents
-/

namespace Booz
open Spec
variable {α : Type} [Arith α]

/-! ### What a successful read says about the file -/

/-- The variable is there and has at most `k` values. -/
def Fetched (f : NcFile α) (n : String) (k : Nat) : Prop := f.var? n ≠ none ∧ entries f n ≤ k

omit [Arith α] in
theorem find_present {f : NcFile α} {n : String} {v : NcVar α} (h : f.find n = .ok v) : f.var? n ≠ none := by
  unfold NcFile.find at h
  split at h
  · next e => rw [e]; simp
  · cases h

section
variable {f : NcFile α} {n : String}

theorem getInt_fetched {old r : Option Int} (h : f.getInt n old = .ok r) : Fetched f n 1 :=
  ⟨let ⟨_, h1, _⟩ := bind_ok h; find_present h1, getInt_fits h⟩

theorem getVec_fetched {old r : Vec α} (h : f.getVec n old = .ok r) {k : Nat} (hk : old.size = k) :
    Fetched f n k ∧ 1 ≤ k :=
  ⟨⟨let ⟨_, h1, _⟩ := bind_ok h; find_present h1, hk ▸ (getVec_fits h).1⟩, hk ▸ (getVec_fits h).2⟩

theorem getIVec_fetched {old r : Vec Int} (h : f.getIVec n old = .ok r) {k : Nat} (hk : old.size = k) :
    Fetched f n k ∧ 1 ≤ k :=
  ⟨⟨let ⟨_, h1, _⟩ := bind_ok h; find_present h1, hk ▸ (getIVec_fits h).1⟩, hk ▸ (getIVec_fits h).2⟩

theorem getMat_fetched {old r : Mat α} (h : f.getMat n old = .ok r) {k : Nat} (hk : old.data.size = k) :
    Fetched f n k :=
  ⟨let ⟨_, h1, _⟩ := bind_ok h; find_present h1, hk ▸ getMat_fits h⟩

theorem tryGetVec_fits {old r : Vec α} (h : tryGetVec f n old = .ok r) {v : NcVar α} (hv : f.var? n = some v)
    (hd : ncDbls v ≠ none) : entries f n ≤ old.size := by
  obtain ⟨a, ha⟩ := Option.ne_none_iff_exists'.mp hd
  unfold tryGetVec at h
  cases e : f.getVec n old with
  | ok r => exact (getVec_fits e).1
  | error g =>
    rw [e] at h
    exfalso
    obtain ⟨w, rfl⟩ := (onlyUb_getVec hv hd old) g e
    cases h

end

theorem setSt_inv {g : St α → Res (St α)} {s t : St α} {u : Unit} (h : setSt g s = .ok u t) : g s = .ok t := by
  unfold setSt Prog.modify at h
  simp only [Prog.bind_def, Prog.get, Prog.lift] at h
  cases e : g s with
  | error x => rw [e] at h; cases x <;> cases h
  | ok I => rw [e] at h; cases h; rfl

theorem setSt_bind_inv {β : Type} {g : St α → Res (St α)} {k : Unit → Prog (St α) β} {s t : St α} {x : β}
    (h : (setSt g >>= k) s = .ok x t) : ∃ s', g s = .ok s' ∧ k () s' = .ok x t := by
  obtain ⟨u, s', h1, h2⟩ := prog_bind_ok h
  exact ⟨s', setSt_inv h1, h2⟩

section
variable {f : NcFile α} {t t' : St α} {u : Unit}

theorem readSizes_inv {K : Int} (hK : ScalarIs f "mnboz_b" K) (h : readSizes f t = .ok u t') :
    t'.out.mnboz = some K ∧ ∀ n ∈ ["nfp_b", "mboz_b", "nboz_b", "mnboz_b"], Fetched f n 1 := by
  unfold readSizes at h
  obtain ⟨_, g1, h⟩ := setSt_bind_inv h
  obtain ⟨_, f1, e⟩ := bind_ok g1
  cases e
  obtain ⟨_, g2, h⟩ := setSt_bind_inv h
  obtain ⟨_, f2, e⟩ := bind_ok g2
  obtain ⟨_, _, e⟩ := bind_ok e
  cases e
  obtain ⟨_, g3, h⟩ := setSt_bind_inv h
  obtain ⟨_, f3, e⟩ := bind_ok g3
  obtain ⟨_, _, e⟩ := bind_ok e
  cases e
  obtain ⟨x, f4, e⟩ := bind_ok (setSt_inv h)
  obtain rfl := getInt_scalar hK f4
  cases e
  refine ⟨rfl, fun n hn => ?_⟩
  simp only [List.mem_cons, List.not_mem_nil, or_false] at hn
  rcases hn with rfl | rfl | rfl | rfl
  exacts [getInt_fetched f1, getInt_fetched f2, getInt_fetched f3, getInt_fetched f4]

theorem readModes_inv {K : Int} (hK : t.out.mnboz = some K) (h : readModes f t = .ok u t') :
    1 ≤ K ∧ t'.out.mnboz = some K ∧ ∀ n ∈ bzModes, Fetched f n K.toNat := by
  unfold readModes at h
  obtain ⟨_, g1, h⟩ := setSt_bind_inv h
  rw [hK, need_some, ok_bind] at g1
  obtain ⟨v, r1, g1⟩ := bind_ok g1
  obtain ⟨w, r2, e⟩ := bind_ok g1
  cases e
  obtain ⟨_, g2, h⟩ := setSt_bind_inv h
  obtain ⟨_, f2, e⟩ := bind_ok g2
  cases e
  obtain ⟨_, f3, e⟩ := bind_ok (setSt_inv h)
  cases e
  obtain ⟨k2, p⟩ := getIVec_fetched f2 (resize_size r1)
  obtain ⟨k3, -⟩ := getIVec_fetched f3 (resize_size r2)
  refine ⟨by omega, hK, fun n hn => ?_⟩
  simp only [bzModes, List.mem_cons, List.not_mem_nil, or_false] at hn
  rcases hn with rfl | rfl
  exacts [k2, k3]

theorem dropFirst3_reads {n : Int} {a b r : Vec3 α} (hn : 1 ≤ n) (h : dropFirst3 n a b = .ok r) :
    Got (a.x.rdN n.toNat) ∧ Got (a.y.rdN n.toNat) ∧ Got (a.z.rdN n.toNat) := by
  obtain ⟨_, _, _, hb⟩ := loop_iter h (i := n.toNat - 1) (by omega)
  rw [show n.toNat - 1 + 1 = n.toNat by omega] at hb
  obtain ⟨_, h1, hb⟩ := bind_ok hb
  obtain ⟨_, _, hb⟩ := bind_ok hb
  obtain ⟨_, h2, hb⟩ := bind_ok hb
  obtain ⟨_, _, hb⟩ := bind_ok hb
  obtain ⟨_, h3, hb⟩ := bind_ok hb
  exact ⟨⟨_, h1⟩, ⟨_, h2⟩, ⟨_, h3⟩⟩

theorem readProfiles_inv {R : Nat} (hR : f.dim? "radius" = some R) (h : readProfiles f t = .ok u t') :
    1 ≤ R ∧ t'.out.mnboz = t.out.mnboz ∧ (∀ n ∈ bzProfiles, Fetched f n R) ∧
    (∀ v, f.var? "chi_b" = some v → ncDbls v ≠ none → entries f "chi_b" ≤ R) ∧
    (2 ≤ R → ∀ n ∈ ["iota_b", "bvco_b", "buco_b"], entries f n = R) := by
  unfold readProfiles at h
  obtain ⟨R', g0, h⟩ := lift_bind_inv h
  rw [NcFile.getdim, hR] at g0
  cases g0
  obtain ⟨_, g1, h⟩ := setSt_bind_inv h
  obtain ⟨_, _, g1⟩ := bind_ok g1
  obtain ⟨_, _, g1⟩ := bind_ok g1
  obtain ⟨_, _, g1⟩ := bind_ok g1
  obtain ⟨p1, s1, g1⟩ := bind_ok g1
  obtain ⟨p2, s2, g1⟩ := bind_ok g1
  obtain ⟨p3, s3, g1⟩ := bind_ok g1
  obtain ⟨p4, s4, e⟩ := bind_ok g1
  cases e
  obtain ⟨w, r0, h⟩ := lift_bind_inv h
  obtain ⟨i1, a1, h⟩ := lift_bind_inv h
  obtain ⟨i2, a2, h⟩ := lift_bind_inv h
  obtain ⟨i3, a3, h⟩ := lift_bind_inv h
  obtain ⟨_, g2, h⟩ := setSt_bind_inv h
  obtain ⟨_, f2, e⟩ := bind_ok g2
  cases e
  obtain ⟨_, g3, h⟩ := setSt_bind_inv h
  obtain ⟨_, f3, e⟩ := bind_ok g3
  cases e
  obtain ⟨_, g4, h⟩ := setSt_bind_inv h
  obtain ⟨_, f4, e⟩ := bind_ok g4
  cases e
  obtain ⟨_, g5, h⟩ := setSt_bind_inv h
  obtain ⟨_, f5, e⟩ := bind_ok g5
  cases e
  obtain ⟨_, g6, h⟩ := setSt_bind_inv h
  obtain ⟨_, f6, e⟩ := bind_ok g6
  cases e
  obtain ⟨_, _, e⟩ := bind_ok (setSt_inv h)
  cases e
  obtain ⟨k1, p⟩ := getVec_fetched a1 (resize_size r0)
  obtain ⟨k2, -⟩ := getVec_fetched a2 (resize_size r0)
  obtain ⟨k3, -⟩ := getVec_fetched a3 (resize_size r0)
  obtain ⟨k4, -⟩ := getVec_fetched f2 (resize_size s1)
  obtain ⟨k5, -⟩ := getVec_fetched f3 (resize_size s2)
  obtain ⟨k6, -⟩ := getVec_fetched f5 (resize_size s4)
  refine ⟨p, rfl, fun n hn => ?_, fun v hv hd => ?_, fun h2 n hn => ?_⟩
  · simp only [bzProfiles, List.mem_cons, List.not_mem_nil, or_false] at hn
    rcases hn with rfl | rfl | rfl | rfl | rfl | rfl
    exacts [k1, k2, k3, k4, k5, k6]
  · have := tryGetVec_fits f4 hv hd
    rwa [show _ = _ from resize_size s3] at this
  · have q := dropFirst3_reads (by omega) f6
    have er : ((R : Int) - 1).toNat = (R : Int).toNat - 1 := by omega
    rw [er] at q
    simp only [List.mem_cons, List.not_mem_nil, or_false] at hn
    rcases hn with rfl | rfl | rfl
    exacts [getVec_short r0 a1 q.1, getVec_short r0 a2 q.2.1, getVec_short r0 a3 q.2.2]

theorem readSurfs_inv {nb : Nat} (hb : f.dim? "comput_surfs" = some nb) (h : readSurfs f t = .ok u t') :
    1 ≤ nb ∧ t'.out.mnboz = t.out.mnboz ∧ t'.out.ns_b = some (nb : Int) ∧ Fetched f "jlist" nb := by
  unfold readSurfs at h
  obtain ⟨R', g0, h⟩ := lift_bind_inv h
  rw [NcFile.getdim, hb] at g0
  cases g0
  obtain ⟨_, g1, h⟩ := setSt_bind_inv h
  obtain ⟨_, s1, e⟩ := bind_ok g1
  cases e
  obtain ⟨_, g2, h⟩ := setSt_bind_inv h
  obtain ⟨_, f2, e⟩ := bind_ok g2
  cases e
  obtain ⟨_, _, e⟩ := bind_ok (setSt_inv h)
  cases e
  obtain ⟨k, p⟩ := getIVec_fetched f2 (resize_size s1)
  exact ⟨p, rfl, rfl, k⟩

theorem readSym_inv {K : Int} {nb : Nat} (hK : t.out.mnboz = some K) (hb : t.out.ns_b = some (nb : Int))
    (h : readSym f t = .ok u t') : t'.out.mnboz = some K ∧ t'.out.ns_b = some (nb : Int) ∧
      ∀ n ∈ ["bmnc_b", "rmnc_b", "zmns_b", "pmns_b", "gmn_b"], Fetched f n (K.toNat * nb) := by
  unfold readSym at h
  obtain ⟨_, g1, h⟩ := setSt_bind_inv h
  rw [hK, hb, need_some, need_some, ok_bind, ok_bind] at g1
  obtain ⟨_, s1, g1⟩ := bind_ok g1
  obtain ⟨_, s2, g1⟩ := bind_ok g1
  obtain ⟨_, s3, g1⟩ := bind_ok g1
  obtain ⟨_, s4, g1⟩ := bind_ok g1
  obtain ⟨_, s5, e⟩ := bind_ok g1
  cases e
  obtain ⟨_, g2, h⟩ := setSt_bind_inv h
  obtain ⟨_, f2, e⟩ := bind_ok g2
  cases e
  obtain ⟨_, g3, h⟩ := setSt_bind_inv h
  obtain ⟨_, f3, e⟩ := bind_ok g3
  cases e
  obtain ⟨_, g4, h⟩ := setSt_bind_inv h
  obtain ⟨_, f4, e⟩ := bind_ok g4
  cases e
  obtain ⟨_, g5, h⟩ := setSt_bind_inv h
  obtain ⟨_, f5, e⟩ := bind_ok g5
  cases e
  obtain ⟨_, g6, h⟩ := setSt_bind_inv h
  cases g6
  obtain ⟨_, f6, e⟩ := bind_ok (setSt_inv h)
  cases e
  refine ⟨hK, hb, fun n hn => ?_⟩
  simp only [List.mem_cons, List.not_mem_nil, or_false] at hn
  rcases hn with rfl | rfl | rfl | rfl | rfl
  exacts [getMat_fetched f2 (mresize_size s1), getMat_fetched f3 (mresize_size s2),
    getMat_fetched f4 (mresize_size s3), getMat_fetched f5 (mresize_size s4), getMat_fetched f6 (mresize_size s5)]

theorem readAsym_inv {K : Int} {nb : Nat} (hK : t.out.mnboz = some K) (hb : t.out.ns_b = some (nb : Int))
    (h : readAsym f true t = .ok u t') :
      ∀ n ∈ ["bmns_b", "rmns_b", "zmnc_b", "pmnc_b", "gmns_b"], Fetched f n (K.toNat * nb) := by
  unfold readAsym at h
  rw [if_pos rfl] at h
  obtain ⟨_, g1, h⟩ := setSt_bind_inv h
  rw [hK, hb, need_some, need_some, ok_bind, ok_bind] at g1
  obtain ⟨_, s1, g1⟩ := bind_ok g1
  obtain ⟨_, s2, g1⟩ := bind_ok g1
  obtain ⟨_, s3, g1⟩ := bind_ok g1
  obtain ⟨_, s4, g1⟩ := bind_ok g1
  obtain ⟨_, s5, e⟩ := bind_ok g1
  cases e
  obtain ⟨_, g2, h⟩ := setSt_bind_inv h
  obtain ⟨_, f2, e⟩ := bind_ok g2
  cases e
  obtain ⟨_, g3, h⟩ := setSt_bind_inv h
  obtain ⟨_, f3, e⟩ := bind_ok g3
  cases e
  obtain ⟨_, g4, h⟩ := setSt_bind_inv h
  obtain ⟨_, f4, e⟩ := bind_ok g4
  cases e
  obtain ⟨_, g5, h⟩ := setSt_bind_inv h
  obtain ⟨_, f5, e⟩ := bind_ok g5
  cases e
  obtain ⟨_, g6, h⟩ := setSt_bind_inv h
  cases g6
  obtain ⟨_, f6, e⟩ := bind_ok (setSt_inv h)
  cases e
  intro n hn
  simp only [List.mem_cons, List.not_mem_nil, or_false] at hn
  rcases hn with rfl | rfl | rfl | rfl | rfl
  exacts [getMat_fetched f2 (mresize_size s1), getMat_fetched f3 (mresize_size s2),
    getMat_fetched f4 (mresize_size s3), getMat_fetched f5 (mresize_size s4), getMat_fetched f6 (mresize_size s5)]

theorem readS_inv (h : readS f t = .ok u t') : Fetched f "ns_b" 1 := by
  unfold readS at h
  obtain ⟨_, g0, _⟩ := lift_bind_inv h
  exact getInt_fetched g0

/-- A boozmn file that is read to its end is complete and fits. -/
theorem readBoozmnBody_fits {z : BoozmnSizes} (hz : BoozmnScalars f z) (h : readBoozmnBody f t = .ok u t') :
    (∀ n ∈ bzRequired (decide (z.lasym ≠ 0)), f.var? n ≠ none) ∧ BoozmnFits f z ∧
      (2 ≤ z.radius → ∀ n ∈ ["iota_b", "bvco_b", "buco_b"], entries f n = z.radius) := by
  unfold readBoozmnBody at h
  obtain ⟨x0, g0, h⟩ := lift_bind_inv h
  obtain rfl := getInt_scalar hz.lasym g0
  obtain ⟨x1, g1, h⟩ := lift_bind_inv h
  cases g1
  obtain ⟨_, g2, h⟩ := setSt_bind_inv h
  cases g2
  obtain ⟨_, t1, e1, h⟩ := prog_bind_ok h
  obtain ⟨_, t2, e2, h⟩ := prog_bind_ok h
  obtain ⟨_, t3, e3, h⟩ := prog_bind_ok h
  obtain ⟨_, t4, e4, h⟩ := prog_bind_ok h
  obtain ⟨_, t5, e5, h⟩ := prog_bind_ok h
  obtain ⟨_, t6, e6, h⟩ := prog_bind_ok h
  obtain ⟨m1, a1⟩ := readSizes_inv hz.mnboz e1
  obtain ⟨q1, m2, a2⟩ := readModes_inv m1 e2
  obtain ⟨q2, m3, a3, a3', a3''⟩ := readProfiles_inv hz.radius e3
  obtain ⟨q3, m4, n4, a4⟩ := readSurfs_inv hz.surfs e4
  obtain ⟨m5, n5, a5⟩ := readSym_inv (m4.trans (m3.trans m2)) n4 e5
  have a7 := readS_inv h
  have key : ∀ n ∈ bzRequired (decide (z.lasym ≠ 0)), Fetched f n (bzRoom z n) := by
    intro n hn
    unfold bzRequired bzSpectra at hn
    simp only [List.mem_append] at hn
    rcases hn with (((hn | hn) | hn) | hn) | hn | hn
    · have er : bzRoom z n = 1 := if_pos hn
      rw [er]
      simp only [bzScalars, List.mem_cons, List.not_mem_nil, or_false] at hn
      rcases hn with rfl | hn | hn | hn | hn | rfl
      · exact getInt_fetched g0
      · exact a1 n (by simp [hn])
      · exact a1 n (by simp [hn])
      · exact a1 n (by simp [hn])
      · exact a1 n (by simp [hn])
      · exact a7
    · have := a2 n hn
      simp only [bzModes, List.mem_cons, List.not_mem_nil, or_false] at hn
      rcases hn with rfl | rfl <;> exact this
    · have := a3 n hn
      simp only [bzProfiles, List.mem_cons, List.not_mem_nil, or_false] at hn
      rcases hn with rfl | rfl | rfl | rfl | rfl | rfl <;> exact this
    · simp only [List.mem_cons, List.not_mem_nil, or_false] at hn
      subst hn
      exact a4
    · have := a5 n hn
      simp only [List.mem_cons, List.not_mem_nil, or_false] at hn
      rcases hn with rfl | rfl | rfl | rfl | rfl <;> exact this
    · split at hn
      · next ha =>
        rw [ha] at e6
        have := readAsym_inv m5 n5 e6 n hn
        simp only [List.mem_cons, List.not_mem_nil, or_false] at hn
        rcases hn with rfl | rfl | rfl | rfl | rfl <;> exact this
      · cases hn
  exact ⟨fun n hn => (key n hn).1, ⟨q1, q2, q3, fun n hn => (key n hn).2, a3'⟩, a3''⟩

end

/-! ### Files of numbers: no exception while reading -/

/-- The computation returns, or its behaviour is undefined. -/
def OkOrUb {σ β : Type} (p : Prog σ β) : Prop := ∀ s, (∃ x t, p s = .ok x t) ∨ ∃ w, p s = .ub w

omit [Arith α] in
theorem OkOrUb.bind {σ β γ : Type} {p : Prog σ β} {k : β → Prog σ γ} (hp : OkOrUb p) (hk : ∀ x, OkOrUb (k x)) :
    OkOrUb (p >>= k) := by
  intro s
  rw [Prog.bind_def]
  rcases hp s with ⟨x, t, e⟩ | ⟨w, e⟩
  · rw [e]; exact hk x t
  · rw [e]; exact .inr ⟨w, rfl⟩

omit [Arith α] in
theorem OkOrUb.lift {σ β γ : Type} {r : Res β} {k : β → Prog σ γ} (h : OnlyUb r) (hk : ∀ x, OkOrUb (k x)) :
    OkOrUb (Prog.lift r >>= k) := by
  refine .bind (fun s => ?_) hk
  cases e : r with
  | ok x => exact .inl ⟨x, s, rfl⟩
  | error g => obtain ⟨w, rfl⟩ := h g e; exact .inr ⟨w, rfl⟩

theorem OkOrUb.setSt {g : St α → Res (St α)} (h : ∀ s, OnlyUb (g s)) : OkOrUb (setSt g) := by
  intro s
  unfold Booz.setSt Prog.modify
  simp only [Prog.bind_def, Prog.get, Prog.lift]
  cases e : g s with
  | ok I => exact .inl ⟨(), _, rfl⟩
  | error x => obtain ⟨w, rfl⟩ := h _ x e; exact .inr ⟨w, rfl⟩

theorem OkOrUb.step {β : Type} {g : St α → Res (St α)} {k : Unit → Prog (St α) β} (h : ∀ s, OnlyUb (g s))
    (hk : OkOrUb (k ())) : OkOrUb (Booz.setSt g >>= k) := .bind (.setSt h) fun _ => hk

theorem onlyUb_tryGetVec (f : NcFile α) (n : String) (old : Vec α) : OnlyUb (tryGetVec f n old) := by
  intro g h
  unfold tryGetVec at h
  cases e : f.getVec n old with
  | ok r => rw [e] at h; cases h
  | error x =>
    cases x with
    | throw m => rw [e] at h; cases h
    | ub w => rw [e] at h; cases h; exact ⟨w, rfl⟩
    | assertFail w =>
      exfalso
      clear h
      unfold NcFile.getVec NcFile.find at e
      cases hv : f.var? n with
      | none => rw [hv] at e; cases e
      | some v =>
        rw [hv] at e
        dsimp only at e
        rw [ok_bind] at e
        unfold first at e
        split at e
        · rw [ok_bind] at e
          unfold NcVar.asDbls at e
          cases hd : v.data with
          | text _ => rw [hd] at e; cases e
          | ints _ =>
            rw [hd] at e; dsimp only at e; rw [ok_bind] at e
            obtain ⟨w, hw⟩ := onlyUb_blit _ _ _ e
            cases hw
          | dbls _ =>
            rw [hd] at e; dsimp only at e; rw [ok_bind] at e
            obtain ⟨w, hw⟩ := onlyUb_blit _ _ _ e
            cases hw
        · cases e

/-- Reading a file of numbers does not throw. -/
theorem readBoozmnBody_okOrUb {f : NcFile α} {z : BoozmnSizes} (hz : BoozmnScalars f z)
    (h : BoozmnNumeric f (decide (z.lasym ≠ 0))) : OkOrUb (readBoozmnBody f) := by
  have hi : ∀ n ∈ bzScalars, ∀ old, OnlyUb (f.getInt n old) := fun n hn old => by
    obtain ⟨v, h1, -, h2⟩ := h n (by simp only [bzRequired, List.mem_append]; exact .inl (.inl (.inl (.inl hn))))
    exact onlyUb_getInt h1 (h2 (by simp only [List.mem_append]; exact .inl (.inl hn))) old
  have hm : ∀ n ∈ bzModes, ∀ old, OnlyUb (f.getIVec n old) := fun n hn old => by
    obtain ⟨v, h1, -, h2⟩ := h n (by simp only [bzRequired, List.mem_append]; exact .inl (.inl (.inl (.inr hn))))
    exact onlyUb_getIVec h1 (h2 (by simp only [List.mem_append]; exact .inl (.inr hn))) old
  have hp : ∀ n ∈ bzProfiles, ∀ old, OnlyUb (f.getVec n old) := fun n hn old => by
    obtain ⟨v, h1, h2, -⟩ := h n (by simp only [bzRequired, List.mem_append]; exact .inl (.inl (.inr hn)))
    exact onlyUb_getVec h1 h2 old
  have hj : ∀ old, OnlyUb (f.getIVec "jlist" old) := fun old => by
    obtain ⟨v, h1, -, h2⟩ := h "jlist" (by simp [bzRequired])
    exact onlyUb_getIVec h1 (h2 (by simp)) old
  have hs : ∀ n ∈ bzSpectra (decide (z.lasym ≠ 0)), ∀ old, OnlyUb (f.getMat n old) := fun n hn old => by
    obtain ⟨v, h1, h2, -⟩ := h n (by simp only [bzRequired, List.mem_append]; exact .inr hn)
    exact onlyUb_getMat h1 h2 old
  have hr : OnlyUb (f.getdim "radius") := by unfold NcFile.getdim; rw [hz.radius]; exact .ok _
  have hb : OnlyUb (f.getdim "comput_surfs") := by unfold NcFile.getdim; rw [hz.surfs]; exact .ok _
  have hlas : ∀ old, f.getInt "lasym__logical__" old = .ok (some z.lasym) := by
    obtain ⟨v, h1, -⟩ := h "lasym__logical__" (by simp [bzRequired, bzScalars])
    exact getInt_some h1 (hz.lasym v h1)
  unfold readBoozmnBody
  rw [hlas]
  intro s
  rw [Prog.lift_ok_bind, need_some, Prog.lift_ok_bind]
  revert s
  change OkOrUb _
  refine .step (fun _ => .ok _) (.bind ?_ fun _ => .bind ?_ fun _ => .bind ?_ fun _ => .bind ?_ fun _ =>
    .bind ?_ fun _ => .bind ?_ fun _ => ?_)
  · unfold readSizes
    exact .step (fun _ => .bind (hi _ (by decide) _) fun _ => .ok _)
      (.step (fun _ => .bind (hi _ (by decide) _) fun _ => .bind (.need _ _) fun _ => .ok _)
      (.step (fun _ => .bind (hi _ (by decide) _) fun _ => .bind (.need _ _) fun _ => .ok _)
      (.setSt fun _ => .bind (hi _ (by decide) _) fun _ => .ok _)))
  · unfold readModes
    exact .step (fun _ => .bind (.need _ _) fun _ => .bind (.vresize _ _) fun _ => .bind (.vresize _ _) fun _ =>
        .ok _)
      (.step (fun _ => .bind (hm _ (by decide) _) fun _ => .ok _)
      (.setSt fun _ => .bind (hm _ (by decide) _) fun _ => .ok _))
  · unfold readProfiles
    refine .lift hr fun R => .step (fun _ => .bind (.vresize _ _) fun _ => .bind (.vresize _ _) fun _ =>
      .bind (.vresize _ _) fun _ => .bind (.vresize _ _) fun _ => .bind (.vresize _ _) fun _ =>
      .bind (.vresize _ _) fun _ => .bind (.vresize _ _) fun _ => .ok _) ?_
    refine .lift (.vresize _ _) fun _ => .lift (hp _ (by decide) _) fun _ => .lift (hp _ (by decide) _) fun _ =>
      .lift (hp _ (by decide) _) fun _ => ?_
    refine .step (fun _ => .bind (hp _ (by decide) _) fun _ => .ok _) ?_
    refine .step (fun _ => .bind (hp _ (by decide) _) fun _ => .ok _) ?_
    refine .step (fun _ => .bind (onlyUb_tryGetVec _ _ _) fun _ => .ok _) ?_
    refine .step (fun _ => .bind (hp _ (by decide) _) fun _ => .ok _) ?_
    refine .step (fun _ => .bind ?_ fun _ => .ok _) ?_
    · unfold dropFirst3; only_ub
    · exact .setSt fun _ => .bind (.vrd _ _) fun _ => .ok _
  · unfold readSurfs
    refine .lift hb fun nb => .step (fun _ => .bind (.vresize _ _) fun _ => .ok _) ?_
    refine .step (fun _ => .bind (hj _) fun _ => .ok _) ?_
    refine .setSt fun _ => .bind ?_ fun _ => .ok _
    unfold minus2; only_ub
  · unfold readSym
    have k : ∀ n ∈ ["bmnc_b", "rmnc_b", "zmns_b", "pmns_b", "gmn_b"], ∀ old, OnlyUb (f.getMat n old) :=
      fun n hn => hs n (by unfold bzSpectra; rw [List.mem_append]; exact .inl hn)
    exact .step (fun _ => .bind (.need _ _) fun _ => .bind (.need _ _) fun _ => .bind (.mresize _ _ _) fun _ =>
        .bind (.mresize _ _ _) fun _ => .bind (.mresize _ _ _) fun _ => .bind (.mresize _ _ _) fun _ =>
        .bind (.mresize _ _ _) fun _ => .ok _)
      (.step (fun _ => .bind (k _ (by decide) _) fun _ => .ok _)
      (.step (fun _ => .bind (k _ (by decide) _) fun _ => .ok _)
      (.step (fun _ => .bind (k _ (by decide) _) fun _ => .ok _)
      (.step (fun _ => .bind (k _ (by decide) _) fun _ => .ok _)
      (.step (fun _ => .ok _)
      (.setSt fun _ => .bind (k _ (by decide) _) fun _ => .ok _))))))
  · unfold readAsym
    by_cases ha : decide (z.lasym ≠ 0) = true
    · rw [if_pos ha]
      rw [ha] at hs
      have k : ∀ n ∈ ["bmns_b", "rmns_b", "zmnc_b", "pmnc_b", "gmns_b"], ∀ old, OnlyUb (f.getMat n old) :=
        fun n hn => hs n (by unfold bzSpectra; rw [List.mem_append, if_pos rfl]; exact .inr hn)
      exact .step (fun _ => .bind (.need _ _) fun _ => .bind (.need _ _) fun _ => .bind (.mresize _ _ _) fun _ =>
          .bind (.mresize _ _ _) fun _ => .bind (.mresize _ _ _) fun _ => .bind (.mresize _ _ _) fun _ =>
          .bind (.mresize _ _ _) fun _ => .ok _)
        (.step (fun _ => .bind (k _ (by decide) _) fun _ => .ok _)
        (.step (fun _ => .bind (k _ (by decide) _) fun _ => .ok _)
        (.step (fun _ => .bind (k _ (by decide) _) fun _ => .ok _)
        (.step (fun _ => .bind (k _ (by decide) _) fun _ => .ok _)
        (.step (fun _ => .ok _)
        (.setSt fun _ => .bind (k _ (by decide) _) fun _ => .ok _))))))
    · rw [if_neg ha]; exact .setSt fun _ => .ok _
  · unfold readS
    refine .lift (hi _ (by decide) _) fun _ => .lift (.need _ _) fun _ => ?_
    refine .step (fun _ => .bind (.need _ _) fun _ => .bind (.vresize _ _) fun _ => .ok _) ?_
    refine .setSt fun _ => .bind (.need _ _) fun _ => .bind ?_ fun _ => .ok _
    unfold sbLoop; only_ub

end Booz
