import Verif.Spec.Keywords
import Mathlib.Tactic.IntervalCases

/-!
# Lemmas on matching arguments with parameters
-/

namespace Booz
variable {β : Type}

theorem lookup_isSome_iff (kw : List (String × β)) (k : String) :
    (kw.lookup k).isSome ↔ k ∈ kw.map Prod.fst := by
  induction kw with
  | nil => simp
  | cons q kw ih =>
    rw [List.lookup_cons]
    by_cases h : k = q.1
    · subst h; simp
    · have : (k == q.1) = false := by simpa using h
      simp only [this, ih, List.map_cons, List.mem_cons, h, false_or]

theorem lookup_none_iff (kw : List (String × β)) (k : String) :
    kw.lookup k = none ↔ k ∉ kw.map Prod.fst := by
  rw [← lookup_isSome_iff]; cases kw.lookup k <;> simp

theorem lookup_filter_ne (kw : List (String × β)) (k j : String) (h : j ≠ k) :
    (kw.filter fun q => q.1 ≠ k).lookup j = kw.lookup j := by
  induction kw with
  | nil => rfl
  | cons q kw ih =>
    by_cases hq : q.1 = k
    · have hj : (j == q.1) = false := by rw [hq]; simpa using h
      rw [List.filter_cons_of_neg (by simpa using hq), List.lookup_cons, hj]; exact ih
    · rw [List.filter_cons_of_pos (by simpa using hq), List.lookup_cons, List.lookup_cons, ih]

theorem mem_filter_ne (kw : List (String × β)) (k j : String) :
    j ∈ (kw.filter fun q => q.1 ≠ k).map Prod.fst ↔ j ∈ kw.map Prod.fst ∧ j ≠ k := by
  simp only [List.mem_map, List.mem_filter, decide_eq_true_eq]
  constructor
  · rintro ⟨q, ⟨h, hk⟩, rfl⟩; exact ⟨⟨q, h, rfl⟩, hk⟩
  · rintro ⟨⟨q, h, rfl⟩, hk⟩; exact ⟨q, ⟨h, hk⟩, rfl⟩

/-- What `bindArgs` requires. -/
structure Fits (ps : List (String × Option β)) (pos : List β) (kw : List (String × β)) : Prop where
  few : pos.length ≤ ps.length
  known : ∀ k ∈ kw.map Prod.fst, ∃ i d, pos.length ≤ i ∧ ps[i]? = some (k, d)
  needed : ∀ i k, pos.length ≤ i → ps[i]? = some (k, none) → (kw.lookup k).isSome

theorem bindArgs_some {ps : List (String × Option β)} {pos : List β} {kw : List (String × β)} {l : List β}
    (hn : (ps.map Prod.fst).Nodup) (h : bindArgs ps pos kw = some l) :
    Fits ps pos kw ∧ l.length = ps.length ∧
      ∀ i p, ps[i]? = some p → l[i]? = if i < pos.length then pos[i]? else (kw.lookup p.1).or p.2 := by
  induction ps generalizing pos kw l with
  | nil =>
    cases pos with
    | cons x pos => simp [bindArgs] at h
    | nil =>
      cases kw with
      | cons q kw => simp [bindArgs] at h
      | nil => simp only [bindArgs, Option.some.injEq] at h; subst h
               exact ⟨⟨by simp, by simp, by simp⟩, rfl, by simp⟩
  | cons p ps ih =>
    simp only [List.map_cons, List.nodup_cons] at hn
    cases pos with
    | cons x pos =>
      simp only [bindArgs] at h
      split at h
      · cases h
      · next hp =>
        obtain ⟨l', hl, rfl⟩ := Option.map_eq_some_iff.mp h
        obtain ⟨F, hlen, hv⟩ := ih hn.2 hl
        refine ⟨⟨by simpa using F.few, ?_, ?_⟩, by simpa using hlen, ?_⟩
        · intro k hk
          obtain ⟨i, d, hi, e⟩ := F.known k hk
          exact ⟨i + 1, d, by simpa using hi, by simpa using e⟩
        · intro i k hi e
          cases i with
          | zero => simp at hi
          | succ i => exact F.needed i k (by simpa using hi) (by simpa using e)
        · intro i q e
          cases i with
          | zero => simp
          | succ i => simpa using hv i q (by simpa using e)
    | nil =>
      simp only [bindArgs] at h
      split at h
      · next x hx =>
        obtain ⟨l', hl, rfl⟩ := Option.map_eq_some_iff.mp h
        obtain ⟨F, hlen, hv⟩ := ih hn.2 hl
        have hne : ∀ (i : Nat) (q : String × Option β), ps[i]? = some q → q.1 ≠ p.1 := by
          intro i q e he
          exact hn.1 (he ▸ List.mem_map_of_mem (List.mem_of_getElem? e))
        refine ⟨⟨by simp, ?_, ?_⟩, by simpa using hlen, ?_⟩
        · intro k hk
          by_cases hkp : k = p.1
          · exact ⟨0, p.2, by simp, by simp [hkp]⟩
          · obtain ⟨i, d, hi, e⟩ := F.known k ((mem_filter_ne kw p.1 k).mpr ⟨hk, hkp⟩)
            exact ⟨i + 1, d, by simp, by simpa using e⟩
        · intro i k hi e
          cases i with
          | zero => simp only [List.getElem?_cons_zero, Option.some.injEq] at e
                    rw [e] at hx; simp [hx]
          | succ i =>
            have e' : ps[i]? = some (k, none) := by simpa using e
            have := F.needed i k (by simp) e'
            rwa [lookup_filter_ne kw p.1 k (hne i _ e')] at this
        · intro i q e
          cases i with
          | zero => simp only [List.getElem?_cons_zero, Option.some.injEq] at e
                    subst e; simp [hx]
          | succ i =>
            have e' : ps[i]? = some q := by simpa using e
            have := hv i q e'
            rw [lookup_filter_ne kw p.1 q.1 (hne i _ e')] at this
            simpa using this
      · next hx =>
        split at h
        · next x hd =>
          obtain ⟨l', hl, rfl⟩ := Option.map_eq_some_iff.mp h
          obtain ⟨F, hlen, hv⟩ := ih hn.2 hl
          refine ⟨⟨by simp, ?_, ?_⟩, by simpa using hlen, ?_⟩
          · intro k hk
            obtain ⟨i, d, hi, e⟩ := F.known k hk
            exact ⟨i + 1, d, by simp, by simpa using e⟩
          · intro i k hi e
            cases i with
            | zero => simp only [List.getElem?_cons_zero, Option.some.injEq] at e
                      rw [e] at hd; cases hd
            | succ i => exact F.needed i k (by simp) (by simpa using e)
          · intro i q e
            cases i with
            | zero => simp only [List.getElem?_cons_zero, Option.some.injEq] at e
                      subst e; simp [hx, hd]
            | succ i => simpa using hv i q (by simpa using e)
        · cases h

theorem bindArgs_of_fits {ps : List (String × Option β)} {pos : List β} {kw : List (String × β)}
    (hn : (ps.map Prod.fst).Nodup) (F : Fits ps pos kw) : ∃ l, bindArgs ps pos kw = some l := by
  induction ps generalizing pos kw with
  | nil =>
    have : pos = [] := by have := F.few; simpa using this
    subst this
    cases kw with
    | nil => exact ⟨[], rfl⟩
    | cons q kw => obtain ⟨i, d, _, e⟩ := F.known q.1 (by simp); simp at e
  | cons p ps ih =>
    simp only [List.map_cons, List.nodup_cons] at hn
    have hne : ∀ (i : Nat) (q : String × Option β), ps[i]? = some q → q.1 ≠ p.1 := by
      intro i q e he
      exact hn.1 (he ▸ List.mem_map_of_mem (List.mem_of_getElem? e))
    cases pos with
    | cons x pos =>
      have hp : ¬ (kw.lookup p.1).isSome = true := by
        intro hs
        obtain ⟨i, d, hi, e⟩ := F.known p.1 ((lookup_isSome_iff kw p.1).mp hs)
        cases i with
        | zero => simp at hi
        | succ i => exact hne i (p.1, d) (by simpa using e) rfl
      obtain ⟨l, hl⟩ := ih (pos := pos) (kw := kw) hn.2
        ⟨by simpa using F.few,
          (fun k hk => by
            obtain ⟨i, d, hi, e⟩ := F.known k hk
            cases i with
            | zero => simp at hi
            | succ i => exact ⟨i, d, by simpa using hi, by simpa using e⟩),
          (fun i k hi e => F.needed (i + 1) k (by simpa using hi) (by simpa using e))⟩
      exact ⟨x :: l, by simp only [bindArgs, hp, hl]; rfl⟩
    | nil =>
      cases hx : kw.lookup p.1 with
      | some x =>
        obtain ⟨l, hl⟩ := ih (pos := []) (kw := kw.filter fun q => q.1 ≠ p.1) hn.2
          ⟨by simp,
            (fun k hk => by
              obtain ⟨hk, hkp⟩ := (mem_filter_ne kw p.1 k).mp hk
              obtain ⟨i, d, hi, e⟩ := F.known k hk
              cases i with
              | zero => simp only [List.getElem?_cons_zero, Option.some.injEq] at e
                        exact absurd (by rw [e]) hkp
              | succ i => exact ⟨i, d, by simp, by simpa using e⟩),
            (fun i k hi e => by
              rw [lookup_filter_ne kw p.1 k (hne i _ e)]
              exact F.needed (i + 1) k (by simp) (by simpa using e))⟩
        exact ⟨x :: l, by simp only [bindArgs, hx, hl]; rfl⟩
      | none =>
        cases hd : p.2 with
        | none =>
          have := F.needed 0 p.1 (by simp) (by simp [← hd])
          rw [hx] at this; cases this
        | some x =>
          obtain ⟨l, hl⟩ := ih (pos := []) (kw := kw) hn.2
            ⟨by simp,
              (fun k hk => by
                obtain ⟨i, d, hi, e⟩ := F.known k hk
                cases i with
                | zero =>
                  simp only [List.getElem?_cons_zero, Option.some.injEq] at e
                  have : k = p.1 := by rw [e]
                  rw [lookup_none_iff] at hx; exact absurd (this ▸ hk) hx
                | succ i => exact ⟨i, d, by simp, by simpa using e⟩),
              (fun i k hi e => F.needed (i + 1) k (by simp) (by simpa using e))⟩
          exact ⟨x :: l, by simp only [bindArgs, hx, hd, hl]; rfl⟩

/-! ### The parameters of `init_from_vmec` -/

variable {α : Type} [Arith α]

omit [Arith α] in
theorem vmecParams_get (i : Nat) : (vmecParams (α := α))[i]? =
    (Spec.workingNames[i]?).map fun k => (k, if i < 14 then none else some (.vec #[])) := by
  by_cases h : i < 18
  · interval_cases i <;> rfl
  · rw [List.getElem?_eq_none (by simp [vmecParams]; omega), List.getElem?_eq_none (by simp [Spec.workingNames]; omega)]
    rfl

omit [Arith α] in
theorem vmecParams_nodup : ((vmecParams (α := α)).map Prod.fst).Nodup := by
  show Spec.workingNames.Nodup
  decide

omit [Arith α] in
theorem fits_iff (pos : List (PyArg α)) (kw : List (String × PyArg α)) :
    Fits vmecParams pos kw ↔ Spec.Matches pos kw := by
  constructor
  · intro F
    refine ⟨F.few, fun k hk => ?_, fun i hi => ?_⟩
    · obtain ⟨i, d, h, e⟩ := F.known k hk
      rw [vmecParams_get] at e
      obtain ⟨k', h', e'⟩ := Option.map_eq_some_iff.mp e
      cases e'
      exact ⟨i, h, h'⟩
    · unfold Spec.supplied
      split
      · next h => simp [h]
      · next h =>
        obtain ⟨k, hk⟩ : ∃ k, Spec.workingNames[i]? = some k :=
          ⟨_, List.getElem?_eq_getElem (by simp [Spec.workingNames]; omega)⟩
        rw [hk]
        exact F.needed i k (by omega) (by rw [vmecParams_get, hk]; simp [hi])
  · intro M
    refine ⟨M.few, fun k hk => ?_, fun i k h e => ?_⟩
    · obtain ⟨i, h, e⟩ := M.known k hk
      exact ⟨i, _, h, by rw [vmecParams_get, e]; rfl⟩
    · rw [vmecParams_get] at e
      obtain ⟨k', h', e'⟩ := Option.map_eq_some_iff.mp e
      simp only [Prod.mk.injEq] at e'
      obtain ⟨rfl, e'⟩ := e'
      have hi : i < 14 := by
        by_contra hc; rw [if_neg hc] at e'; cases e'
      have := M.needed i hi
      rw [Spec.supplied, if_neg (by omega), h'] at this
      exact this

omit [Arith α] in
theorem bound_get {pos : List (PyArg α)} {kw : List (String × PyArg α)} {l : List (PyArg α)}
    (h : bindArgs vmecParams pos kw = some l) (i : Nat) (hi : i < 18) :
    l[i]? = (Spec.supplied pos kw i).or (if i < 14 then none else some (.vec #[])) := by
  obtain ⟨_, _, hv⟩ := bindArgs_some vmecParams_nodup h
  obtain ⟨k, hk⟩ : ∃ k, Spec.workingNames[i]? = some k :=
    ⟨_, List.getElem?_eq_getElem (by simp [Spec.workingNames]; omega)⟩
  rw [hv i _ (by rw [vmecParams_get, hk]; rfl), Spec.supplied, hk]
  by_cases hp : i < pos.length
  · simp [hp]
  · rw [if_neg hp, if_neg hp]; rfl

omit [Arith α] in
theorem isInt_iff {x : PyArg α} {n : Int} : Spec.IsInt x n ↔ x.asInt = some n := by
  constructor
  · rintro ⟨lo, hi⟩
    exact if_pos ⟨lo, by omega⟩
  · intro h
    cases x with
    | int y =>
      simp only [PyArg.asInt] at h
      split at h
      · rename_i hf
        cases h
        exact .number hf.1 (by have := hf.2; omega)
      · cases h
    | vec v => cases h
    | mat a => cases h

omit [Arith α] in
theorem isVec_iff {x : PyArg α} {v : Vec α} : Spec.IsVec x v ↔ x.asVec = some v := by
  constructor
  · rintro (_ | h)
    · rfl
    · exact if_pos h
  · intro h
    cases x with
    | int y => cases h
    | vec v => cases h; exact .array _
    | mat a =>
      simp only [PyArg.asVec] at h
      split at h
      · rename_i hc
        cases h
        exact .column hc
      · cases h

omit [Arith α] in
theorem isMat_iff {x : PyArg α} {a : Mat α} : Spec.IsMat x a ↔ x.asMat = some a := by
  constructor
  · rintro (_ | _) <;> rfl
  · intro h
    cases x with
    | int y => cases h
    | vec v => cases h; exact .column _
    | mat a => cases h; exact .array _

omit [Arith α] in
theorem profileArg_iff {pos : List (PyArg α)} {kw : List (String × PyArg α)} {i : Nat} {x : PyArg α} (v : Vec α)
    (h : some x = (Spec.supplied pos kw i).or (some (.vec #[]))) :
    Spec.ProfileArg pos kw i v ↔ x.asVec = some v := by
  unfold Spec.ProfileArg Spec.VecArg
  simp only [isVec_iff]
  cases e : Spec.supplied pos kw i with
  | none =>
    rw [e] at h; cases h
    simp [PyArg.asVec, eq_comm]
  | some y => rw [e] at h; cases h; simp

omit [Arith α] in
theorem vecArg_iff {pos : List (PyArg α)} {kw : List (String × PyArg α)} {i : Nat} {x : PyArg α} (v : Vec α)
    (h : some x = (Spec.supplied pos kw i).or none) : Spec.VecArg pos kw i v ↔ x.asVec = some v := by
  rw [Option.or_none] at h
  simp [Spec.VecArg, isVec_iff, ← h]

omit [Arith α] in
theorem matArg_iff {pos : List (PyArg α)} {kw : List (String × PyArg α)} {i : Nat} {x : PyArg α} (v : Mat α)
    (h : some x = (Spec.supplied pos kw i).or none) : Spec.MatArg pos kw i v ↔ x.asMat = some v := by
  rw [Option.or_none] at h
  simp [Spec.MatArg, isMat_iff, ← h]

omit [Arith α] in
theorem toVmecArgs_iff {pos : List (PyArg α)} {kw : List (String × PyArg α)} {l : List (PyArg α)}
    (h : bindArgs vmecParams pos kw = some l) (ns : Int) (A : VmecArgs α) :
    toVmecArgs l = some (ns, A) ↔ Spec.Gives pos kw ns A := by
  obtain ⟨_, hlen, _⟩ := bindArgs_some vmecParams_nodup h
  have g := bound_get h
  match l, hlen with
  | [x0, x1, x2, x3, x4, x5, x6, x7, x8, x9, x10, x11, x12, x13, x14, x15, x16, x17], _ =>
    have h0 : some x0 = Spec.supplied pos kw 0 := by have := g 0 (by decide); rwa [if_pos (by decide), Option.or_none] at this
    have k1 := vecArg_iff A.iotas (g 1 (by decide))
    have k2 := matArg_iff A.rmnc (g 2 (by decide))
    have k3 := matArg_iff A.rmns (g 3 (by decide))
    have k4 := matArg_iff A.zmnc (g 4 (by decide))
    have k5 := matArg_iff A.zmns (g 5 (by decide))
    have k6 := matArg_iff A.lmnc (g 6 (by decide))
    have k7 := matArg_iff A.lmns (g 7 (by decide))
    have k8 := matArg_iff A.bmnc (g 8 (by decide))
    have k9 := matArg_iff A.bmns (g 9 (by decide))
    have k10 := matArg_iff A.bsubumnc (g 10 (by decide))
    have k11 := matArg_iff A.bsubumns (g 11 (by decide))
    have k12 := matArg_iff A.bsubvmnc (g 12 (by decide))
    have k13 := matArg_iff A.bsubvmns (g 13 (by decide))
    have k14 := profileArg_iff A.phip (g 14 (by decide))
    have k15 := profileArg_iff A.chi (g 15 (by decide))
    have k16 := profileArg_iff A.pres (g 16 (by decide))
    have k17 := profileArg_iff A.phi (g 17 (by decide))
    constructor
    · intro e
      unfold toVmecArgs at e
      obtain ⟨_, e0, e⟩ := Option.bind_eq_some_iff.mp e
      obtain ⟨_, e1, e⟩ := Option.bind_eq_some_iff.mp e
      obtain ⟨_, e2, e⟩ := Option.bind_eq_some_iff.mp e
      obtain ⟨_, e3, e⟩ := Option.bind_eq_some_iff.mp e
      obtain ⟨_, e4, e⟩ := Option.bind_eq_some_iff.mp e
      obtain ⟨_, e5, e⟩ := Option.bind_eq_some_iff.mp e
      obtain ⟨_, e6, e⟩ := Option.bind_eq_some_iff.mp e
      obtain ⟨_, e7, e⟩ := Option.bind_eq_some_iff.mp e
      obtain ⟨_, e8, e⟩ := Option.bind_eq_some_iff.mp e
      obtain ⟨_, e9, e⟩ := Option.bind_eq_some_iff.mp e
      obtain ⟨_, e10, e⟩ := Option.bind_eq_some_iff.mp e
      obtain ⟨_, e11, e⟩ := Option.bind_eq_some_iff.mp e
      obtain ⟨_, e12, e⟩ := Option.bind_eq_some_iff.mp e
      obtain ⟨_, e13, e⟩ := Option.bind_eq_some_iff.mp e
      obtain ⟨_, e14, e⟩ := Option.bind_eq_some_iff.mp e
      obtain ⟨_, e15, e⟩ := Option.bind_eq_some_iff.mp e
      obtain ⟨_, e16, e⟩ := Option.bind_eq_some_iff.mp e
      obtain ⟨_, e17, e⟩ := Option.bind_eq_some_iff.mp e
      cases e
      exact ⟨⟨x0, h0.symm, isInt_iff.mpr e0⟩, k1.mpr e1, k2.mpr e2, k3.mpr e3, k4.mpr e4, k5.mpr e5, k6.mpr e6, k7.mpr e7, k8.mpr e8,
        k9.mpr e9, k10.mpr e10, k11.mpr e11, k12.mpr e12, k13.mpr e13, k14.mpr e14, k15.mpr e15, k16.mpr e16,
        k17.mpr e17⟩
    · intro G
      obtain ⟨y, hy, e0⟩ := G.ns
      rw [← h0] at hy; cases hy
      rw [isInt_iff] at e0
      simp only [toVmecArgs, e0, k1.mp G.iotas, k2.mp G.rmnc, k3.mp G.rmns, k4.mp G.zmnc, k5.mp G.zmns, k6.mp G.lmnc,
        k7.mp G.lmns, k8.mp G.bmnc, k9.mp G.bmns, k10.mp G.bsubumnc, k11.mp G.bsubumns, k12.mp G.bsubvmnc,
        k13.mp G.bsubvmns, k14.mp G.phip, k15.mp G.chi, k16.mp G.pres, k17.mp G.phi, Option.bind_eq_bind,
        Option.bind_some]

open Spec

omit [Arith α] in
theorem lookup_of_mem {β : Type} {kw : List (String × β)} (h : (kw.map Prod.fst).Nodup) (k : String) (x : β) :
    kw.lookup k = some x ↔ (k, x) ∈ kw := by
  induction kw with
  | nil => simp
  | cons q kw ih =>
    simp only [List.map_cons, List.nodup_cons] at h
    rw [List.lookup_cons]
    by_cases hk : k = q.1
    · subst hk
      simp only [BEq.rfl, Option.some.injEq, List.mem_cons]
      constructor
      · rintro rfl; exact .inl rfl
      · rintro (e | e)
        · rw [← e]
        · exact absurd (List.mem_map_of_mem (f := Prod.fst) e) h.1
    · have : (k == q.1) = false := by simpa using hk
      simp only [this, ih h.2, List.mem_cons]
      constructor
      · exact .inr
      · rintro (e | e)
        · exact absurd (by rw [← e]) hk
        · exact e

omit [Arith α] in
theorem supplied_perm {pos : List (PyArg α)} {kw kw' : List (String × PyArg α)} (h : (kw.map Prod.fst).Nodup)
    (p : kw.Perm kw') : supplied pos kw' = supplied pos kw := by
  have h' : (kw'.map Prod.fst).Nodup := (p.map Prod.fst).nodup_iff.mp h
  have : ∀ k, kw'.lookup k = kw.lookup k := fun k => Option.ext fun x => by
    rw [lookup_of_mem h, lookup_of_mem h', p.mem_iff]
  funext i
  simp only [supplied, this]

omit [Arith α] in
theorem gives_of_supplied {pos : List (PyArg α)} {kw kw' : List (String × PyArg α)} {ns : Int} {A : VmecArgs α}
    (e : supplied pos kw' = supplied pos kw) (g : Gives pos kw ns A) : Gives pos kw' ns A where
  ns := by rw [e]; exact g.ns
  iotas := by unfold VecArg; rw [e]; exact g.iotas
  rmnc := by unfold MatArg; rw [e]; exact g.rmnc
  rmns := by unfold MatArg; rw [e]; exact g.rmns
  zmnc := by unfold MatArg; rw [e]; exact g.zmnc
  zmns := by unfold MatArg; rw [e]; exact g.zmns
  lmnc := by unfold MatArg; rw [e]; exact g.lmnc
  lmns := by unfold MatArg; rw [e]; exact g.lmns
  bmnc := by unfold MatArg; rw [e]; exact g.bmnc
  bmns := by unfold MatArg; rw [e]; exact g.bmns
  bsubumnc := by unfold MatArg; rw [e]; exact g.bsubumnc
  bsubumns := by unfold MatArg; rw [e]; exact g.bsubumns
  bsubvmnc := by unfold MatArg; rw [e]; exact g.bsubvmnc
  bsubvmns := by unfold MatArg; rw [e]; exact g.bsubvmns
  phip := by unfold ProfileArg VecArg; rw [e]; exact g.phip
  chi := by unfold ProfileArg VecArg; rw [e]; exact g.chi
  pres := by unfold ProfileArg VecArg; rw [e]; exact g.pres
  phi := by unfold ProfileArg VecArg; rw [e]; exact g.phi

end Booz
