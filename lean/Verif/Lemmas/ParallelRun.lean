import Verif.Lemmas.ParallelSteps
import Verif.Lemmas.RunInv

/-!
# The iterations of `run` are a `Plan`
-/

namespace Booz

variable {α : Type} [Arith α]

open Act

/-- The memory after the first `b` iterations in order. -/
def seqMem (prog : Nat → Act α Unit) (m : Common α) : Nat → Common α
  | 0 => m
  | b + 1 => match (prog b).exec (seqMem prog m b) with
    | .ok r => r.2
    | .error _ => seqMem prog m b

theorem surfaceSolve_shared {dbg : Bool} {b : Nat} {s s' : St α} {r : Option (Report α)}
    (h : surfaceSolve dbg b s = .ok (s', r)) : s' = s.withShared s'.shared := by
  unfold surfaceSolve at h
  obtain ⟨js, -, h⟩ := bind_ok h
  obtain ⟨t, -, h⟩ := bind_ok h
  obtain ⟨bI, -, h⟩ := bind_ok h
  obtain ⟨bG, -, h⟩ := bind_ok h
  obtain ⟨L, -, h⟩ := bind_ok h
  obtain ⟨o, -, h⟩ := bind_ok h
  by_cases hv : s.inp.verbose > 0
  · replace h : (if s.inp.verbose > 0 then _ else _) = Except.ok (s', r) := h
    rw [if_pos hv] at h
    obtain ⟨rep, -, h⟩ := bind_ok h
    cases h; rfl
  · replace h : (if s.inp.verbose > 0 then _ else _) = Except.ok (s', r) := h
    rw [if_neg hv] at h
    cases h; rfl

theorem surfaceSolve_report {dbg : Bool} {b : Nat} {s s' : St α} {r : Report α}
    (h : surfaceSolve dbg b s = .ok (s', some r)) : r.js_b = b := by
  unfold surfaceSolve at h
  obtain ⟨js, -, h⟩ := bind_ok h
  obtain ⟨t, -, h⟩ := bind_ok h
  obtain ⟨bI, -, h⟩ := bind_ok h
  obtain ⟨bG, -, h⟩ := bind_ok h
  obtain ⟨L, -, h⟩ := bind_ok h
  obtain ⟨o, -, h⟩ := bind_ok h
  by_cases hv : s.inp.verbose > 0
  · replace h : (if s.inp.verbose > 0 then _ else _) = Except.ok (s', some r) := h
    rw [if_pos hv] at h
    obtain ⟨rep, h1, h⟩ := bind_ok h
    cases h
    rw [checkAccuracy_split] at h1
    obtain ⟨_, -, h1⟩ := bind_ok h1
    obtain ⟨_, -, h1⟩ := bind_ok h1
    obtain ⟨_, -, h1⟩ := bind_ok h1
    obtain ⟨_, -, h1⟩ := bind_ok h1
    obtain ⟨_, -, h1⟩ := bind_ok h1
    cases h1; rfl
  · replace h : (if s.inp.verbose > 0 then _ else _) = Except.ok (s', some r) := h
    rw [if_neg hv] at h
    cases h

/-- The loop of `run`. -/
def runLoop (dbg : Bool) (n : Nat) (s : St α) : Res (St α × List (Report α)) :=
  loop n (fun j (st : St α × List (Report α)) => do
    let (s, rep) ← surfaceSolve dbg j st.1
    pure (s, st.2 ++ rep.toList)) (s, [])

theorem runLoop_succ {dbg : Bool} {n : Nat} {s s' : St α} {reps : List (Report α)}
    (h : runLoop dbg (n + 1) s = .ok (s', reps)) :
    ∃ s1 reps1 r, runLoop dbg n s = .ok (s1, reps1) ∧ surfaceSolve dbg n s1 = .ok (s', r) ∧
      reps = reps1 ++ r.toList := by
  unfold runLoop at h
  rw [loop_succ] at h
  obtain ⟨⟨s1, reps1⟩, h1, h2⟩ := bind_ok h
  obtain ⟨⟨s2, r⟩, h3, h4⟩ := bind_ok h2
  cases h4
  exact ⟨s1, reps1, r, h1, h3, rfl⟩

theorem run_loop_inv {dbg : Bool} {s s' : St α} {reps : List (Report α)} (h : run dbg s = .ok (s', reps)) :
    ∃ s0, init dbg s = .ok s0 ∧ runLoop dbg s0.inp.compute_surfs.size s0 = .ok (s', reps) := by
  unfold run at h
  obtain ⟨_, -, h⟩ := bind_ok h
  obtain ⟨s0, h1, h2⟩ := bind_ok h
  exact ⟨s0, h1, h2⟩

omit [Arith α] in
theorem filter_block (r : Option (Report α)) :
    (r.toList.flatMap block).filter Line.ofReport = r.toList.flatMap block := by
  cases r <;> rfl

omit [Arith α] in
theorem linesOf_reports (s : St α) (b : Nat) (r : Option (Report α)) :
    (linesOf s b r).filter Line.ofReport = r.toList.flatMap block := by
  unfold linesOf
  rw [List.filter_append]
  rw [show (r.toList.flatMap fun r => [Line.first r, Line.second r]) = r.toList.flatMap block from rfl,
    filter_block]
  have : ∀ l : List (Line α), (∀ x ∈ l, x.ofReport = false) → l.filter Line.ofReport = [] := by
    intro l hl
    rw [List.filter_eq_nil_iff]
    intro x hx; rw [hl x hx]; simp
  rw [this _ ?_, List.nil_append]
  split
  · split
    · intro x hx
      simp only [List.mem_singleton] at hx
      subst hx; rfl
    · simp
  · simp

/-- What the sequential loop leaves, in terms of the programs. -/
theorem seq_spec {dbg : Bool} {s0 : St α} {k : Nat} {s' : St α} {reps : List (Report α)}
    (h : runLoop dbg k s0 = .ok (s', reps)) :
    (∀ b < k, (surfaceAct dbg s0 b).exec (seqMem (surfaceAct dbg s0) ⟨s0.shared, []⟩ b) =
        .ok ((), seqMem (surfaceAct dbg s0) ⟨s0.shared, []⟩ (b + 1))) ∧
      (seqMem (surfaceAct dbg s0) ⟨s0.shared, []⟩ k).sh = s'.shared ∧ s' = s0.withShared s'.shared ∧
      (seqMem (surfaceAct dbg s0) ⟨s0.shared, []⟩ k).out.filter Line.ofReport = reps.flatMap block ∧
      (∀ r ∈ reps, r.js_b < k) ∧
      (∀ b, (seqMem (surfaceAct dbg s0) ⟨s0.shared, []⟩ k).out.filter (fun l => l.js_b == b) =
        (if b < k then linesOf s0 b none else []) ++
          (reps.filter fun r => r.js_b == b).flatMap block) := by
  induction k generalizing s' reps with
  | zero =>
    cases h
    exact ⟨fun b hb => by omega, rfl, rfl, rfl, by simp, fun b => by simp [seqMem]⟩
  | succ k ih =>
    obtain ⟨s1, reps1, r, h1, h2, rfl⟩ := runLoop_succ h
    obtain ⟨i1, i2, i3, i4, i5, i6⟩ := ih h1
    have ea : surfaceAct dbg s0 k = surfaceAct dbg s1 k := by rw [i3]; rfl
    have el : ∀ r, linesOf s0 k r = linesOf s1 k r := by rw [i3]; intro r; rfl
    have e := surfaceAct_exec dbg s1 k (seqMem (surfaceAct dbg s0) ⟨s0.shared, []⟩ k).out
    rw [h2, ok_bind, ← ea, ← i2] at e
    have e' : (surfaceAct dbg s0 k).exec (seqMem (surfaceAct dbg s0) ⟨s0.shared, []⟩ k) =
      .ok ((), ⟨s'.shared, (seqMem (surfaceAct dbg s0) ⟨s0.shared, []⟩ k).out ++ linesOf s0 k r⟩) := by
      rw [el]; exact e
    have en : seqMem (surfaceAct dbg s0) ⟨s0.shared, []⟩ (k + 1) =
        ⟨s'.shared, (seqMem (surfaceAct dbg s0) ⟨s0.shared, []⟩ k).out ++ linesOf s0 k r⟩ := by
      show (match (surfaceAct dbg s0 k).exec (seqMem (surfaceAct dbg s0) ⟨s0.shared, []⟩ k) with
        | .ok r => r.2
        | .error _ => _) = _
      rw [e']
    have hr : ∀ x ∈ r.toList, x.js_b = k := by
      intro x hx
      cases r with
      | none => cases hx
      | some y =>
        simp only [Option.toList_some, List.mem_singleton] at hx
        subst hx
        exact surfaceSolve_report h2
    refine ⟨?_, ?_, ?_, ?_, ?_, ?_⟩
    · intro b hb
      rcases Nat.lt_succ_iff_lt_or_eq.mp hb with h3 | rfl
      · exact i1 b h3
      · rw [en]; exact e'
    · rw [en]
    · have h3 := surfaceSolve_shared h2
      rw [i3] at h3
      exact h3
    · rw [en]
      simp only [List.filter_append, i4, linesOf_reports, List.flatMap_append]
    · intro x hx
      rcases List.mem_append.mp hx with hx | hx
      · exact Nat.lt_succ_of_lt (i5 x hx)
      · rw [hr x hx]; omega
    · intro b
      rw [en]
      simp only [List.filter_append, i6 b, List.flatMap_append]
      have q : linesOf s0 k r = linesOf s0 k none ++ r.toList.flatMap block := by
        unfold linesOf
        simp only [Option.toList_none, List.flatMap_nil, List.append_nil]
        rfl
      have lo : ∀ l ∈ linesOf s0 k none, l.js_b = k := by
        unfold linesOf
        split
        · split
          · intro l hl
            simp only [Option.toList_none, List.flatMap_nil, List.append_nil, List.mem_singleton] at hl
            subst hl; rfl
          · simp
        · simp
      have lb : ∀ l ∈ r.toList.flatMap block, l.js_b = k := by
        intro l hl
        obtain ⟨x, hx, hl⟩ := List.mem_flatMap.mp hl
        simp only [block, List.mem_cons, List.not_mem_nil, or_false] at hl
        rcases hl with rfl | rfl <;> exact hr x hx
      rw [q, List.filter_append]
      by_cases hb : b = k
      · subst hb
        have z : reps1.filter (fun r => r.js_b == b) = [] := by
          rw [List.filter_eq_nil_iff]
          intro x hx hxb
          have := i5 x hx
          simp only [beq_iff_eq] at hxb; omega
        have f1 : (linesOf s0 b none).filter (fun l => l.js_b == b) = linesOf s0 b none :=
          List.filter_eq_self.mpr fun l hl => by simp [lo l hl]
        have f2 : (r.toList.flatMap block).filter (fun l => l.js_b == b) = r.toList.flatMap block :=
          List.filter_eq_self.mpr fun l hl => by simp [lb l hl]
        have f3 : r.toList.filter (fun r => r.js_b == b) = r.toList :=
          List.filter_eq_self.mpr fun l hl => by simp [hr l hl]
        rw [z, f1, f2, f3]
        simp
      · have f1 : (linesOf s0 k none).filter (fun l => l.js_b == b) = [] := by
          rw [List.filter_eq_nil_iff]
          intro l hl; simp [lo l hl, Ne.symm hb]
        have f2 : (r.toList.flatMap block).filter (fun l => l.js_b == b) = [] := by
          rw [List.filter_eq_nil_iff]
          intro l hl; simp [lb l hl, Ne.symm hb]
        have f3 : r.toList.filter (fun r => r.js_b == b) = [] := by
          rw [List.filter_eq_nil_iff]
          intro l hl; simp [hr l hl, Ne.symm hb]
        rw [f1, f2, f3]
        have : (b < k + 1) ↔ b < k := by omega
        simp [this]

theorem run_plan {dbg : Bool} {s0 : St α} {n : Nat} {s' : St α} {reps : List (Report α)}
    (h : runLoop dbg n s0 = .ok (s', reps)) :
    Plan (surfaceAct dbg s0) (seqMem (surfaceAct dbg s0) ⟨s0.shared, []⟩) n where
  within := surfaceAct_within dbg s0
  neat := surfaceAct_neat dbg s0
  silent := rfl
  step := (seq_spec h).1

/-- The report a line begins. -/
def Line.begins : Line α → Option (Report α)
  | .first r => some r
  | _ => none

/-- The reports printed, in the order of their first lines. -/
def firsts (out : List (Line α)) : List (Report α) := out.filterMap Line.begins

omit [Arith α] in
theorem firsts_filter (out : List (Line α)) : firsts (out.filter Line.ofReport) = firsts out := by
  induction out with
  | nil => rfl
  | cons l out ih =>
    unfold firsts at *
    cases l <;> rw [List.filter_cons] <;> simp [Line.ofReport, Line.begins, List.filterMap_cons, ih]

omit [Arith α] in
theorem firsts_blocks (L : List (Report α)) : firsts (L.flatMap block) = L := by
  induction L with
  | nil => rfl
  | cons r L ih =>
    unfold firsts at *
    simp [block, Line.begins, List.filterMap_cons, ih]

end Booz
