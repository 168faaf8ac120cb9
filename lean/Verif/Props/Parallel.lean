import Verif.Lemmas.ParallelRun
import Verif.Examples

/-!
# C29: threads and schedules
-/

namespace Booz

variable {α : Type} [Arith α]

/-- **C29.**  Suppose the sequential `run` succeeds with object `s'` and reports `reps`.  Then, for every
number of threads `T`, every assignment of iterations to threads and every interleaving of their steps:
no step is undefined, there is no data race, a loop that is not over can always continue, every execution
has at most `N` steps, and at its end the object is exactly `s'` and the report lines printed are the
blocks of two lines of the reports `reps` in some order, none of them torn apart. -/
theorem C29_parallel {dbg : Bool} {s s' : St α} {reps : List (Report α)}
    (h : run dbg s = .ok (s', reps)) :
    ∃ s0, init dbg s = .ok s0 ∧
      (∀ (T k : Nat) (c : Conf α), Steps (surfaceAct dbg s0) k (Conf.begin s0 T) c →
        ¬ c.Faulty ∧ ¬ c.Racy ∧
        (0 < T → ¬ c.Done → ∃ c', Step (surfaceAct dbg s0) c c') ∧
        (c.Done → s0.withShared c.mem.sh = s' ∧ ∃ L : List (Report α), L.Perm reps ∧
          c.mem.out.filter Line.ofReport = L.flatMap fun r => [.first r, .second r])) ∧
      ∃ N, ∀ (T k : Nat) (c : Conf α), Steps (surfaceAct dbg s0) k (Conf.begin s0 T) c →
        k ≤ N ∧ (c.Done → k = N) := by
  obtain ⟨s0, h0, h1⟩ := run_loop_inv h
  have P := run_plan h1
  obtain ⟨-, q2, q3, q4, -, -⟩ := seq_spec h1
  have hT : ∀ {T k : Nat} {c : Conf α}, Steps (surfaceAct dbg s0) k (Conf.begin s0 T) c →
      c.thr.length = T := by
    intro T k c hc
    generalize e : Conf.begin s0 T = c0 at hc
    induction hc with
    | refl c => subst e; simp [Conf.begin]
    | tail hc hc' ih =>
      have := ih e
      cases hc' <;> simpa using this
  refine ⟨s0, h0, ?_, pot (surfaceAct dbg s0) ⟨s0.shared, []⟩ (Conf.begin s0 0), ?_⟩
  · intro T k c hc
    obtain ⟨I, st, J⟩ := P.inv hc
    refine ⟨I.not_faulty J, I.not_racy, fun hT0 hD => I.progress J ?_ hD, fun hD => ?_⟩
    · intro e
      have := hT hc
      rw [e] at this
      simp only [List.length_nil] at this; omega
    · obtain ⟨h2, -, h4, L, hL⟩ := I.done J hD
      refine ⟨?_, L, ?_, hL⟩
      · rw [h2, q2]; exact q3.symm
      · have h5 : (firsts c.mem.out).Perm (firsts (seqMem (surfaceAct dbg s0) ⟨s0.shared, []⟩
            s0.inp.compute_surfs.size).out) := h4.filterMap _
        rw [← firsts_filter, hL, firsts_blocks] at h5
        rw [← firsts_filter (seqMem _ _ _).out, q4, firsts_blocks] at h5
        exact h5
  · intro T k c hc
    have h2 := P.steps hc
    have e : pot (surfaceAct dbg s0) ⟨s0.shared, []⟩ (Conf.begin s0 T) =
        pot (surfaceAct dbg s0) ⟨s0.shared, []⟩ (Conf.begin s0 0) := by
      simp [pot, Conf.begin, left]
    replace h2 : k + pot (surfaceAct dbg s0) ⟨s0.shared, []⟩ c =
      pot (surfaceAct dbg s0) ⟨s0.shared, []⟩ (Conf.begin s0 T) := h2
    rw [e] at h2
    refine ⟨by omega, fun hD => ?_⟩
    have h3 : pot (surfaceAct dbg s0) ⟨s0.shared, []⟩ c = 0 := by
      unfold pot
      rw [hD.1]
      have : ∀ l : List (Option (Nat × Act α Unit)), (∀ x ∈ l, x = none) → (l.map (left c.mem)).sum = 0 := by
        intro l hl
        induction l with
        | nil => rfl
        | cons x l ih =>
          rw [List.map_cons, List.sum_cons, ih fun y hy => hl y (List.mem_cons_of_mem _ hy),
            hl x List.mem_cons_self]
          rfl
      rw [this _ hD.2]; rfl
    omega

/-- **C29**, the lines about one surface: with `verbose > 1` its "Solving" line comes first, then the
two lines of its report, whatever the schedule. -/
theorem C29_lines {dbg : Bool} {s s' : St α} {reps : List (Report α)}
    (h : run dbg s = .ok (s', reps)) {s0 : St α} (h0 : init dbg s = .ok s0) {T k : Nat} {c : Conf α}
    (hc : Steps (surfaceAct dbg s0) k (Conf.begin s0 T) c) (hD : c.Done) {b : Nat} {js : Int}
    (hb : b < s0.inp.compute_surfs.size) (hjs : s0.inp.compute_surfs.rdN b = .ok js) :
    c.mem.out.filter (fun l => l.js_b == b) =
      (if s0.inp.verbose > 1 then [.solving b js] else []) ++
        (reps.filter fun r => r.js_b == b).flatMap fun r => [.first r, .second r] := by
  obtain ⟨s1, h1, h2⟩ := run_loop_inv h
  rw [h0] at h1; cases h1
  have P := run_plan h2
  obtain ⟨-, -, -, -, -, q⟩ := seq_spec h2
  obtain ⟨I, st, J⟩ := P.inv hc
  obtain ⟨-, h3, -, -⟩ := I.done J hD
  rw [h3 b, q b, if_pos hb]
  unfold linesOf
  rw [hjs]
  simp only [Option.toList_none, List.flatMap_nil, List.append_nil]
  rfl

/-- **C29**, there is a complete execution for every positive number of threads. -/
theorem C29_completes {dbg : Bool} {s s' : St α} {reps : List (Report α)}
    (h : run dbg s = .ok (s', reps)) {T : Nat} (hT : 0 < T) :
    ∃ s0 k c, init dbg s = .ok s0 ∧ Steps (surfaceAct dbg s0) k (Conf.begin s0 T) c ∧ c.Done := by
  obtain ⟨s0, h0, h1, N, h2⟩ := C29_parallel h
  refine ⟨s0, ?_⟩
  have key : ∀ j k c, N - k = j → Steps (surfaceAct dbg s0) k (Conf.begin s0 T) c →
      ∃ k c, init dbg s = .ok s0 ∧ Steps (surfaceAct dbg s0) k (Conf.begin s0 T) c ∧ c.Done := by
    intro j
    induction j with
    | zero =>
      intro k c hj hc
      by_cases hD : c.Done
      · exact ⟨k, c, h0, hc, hD⟩
      · obtain ⟨c', hs⟩ := (h1 T k c hc).2.2.1 hT hD
        have := (h2 T (k + 1) c' (.tail hc hs)).1
        omega
    | succ j ih =>
      intro k c hj hc
      by_cases hD : c.Done
      · exact ⟨k, c, h0, hc, hD⟩
      · obtain ⟨c', hs⟩ := (h1 T k c hc).2.2.1 hT hD
        exact ih (k + 1) c' (by omega) (.tail hc hs)
  exact key N 0 _ (by omega) (.refl _)

/-- The hypotheses are met by the example objects (two surfaces) for both symmetries. -/
example (asym : Bool) : ∃ r, run false (Ex.st (α := α) asym) = .ok r :=
  ⟨_, run_ok (Ex.ready asym) (by simp) (by simp)⟩

/-- With three threads, for the example object. -/
example (asym : Bool) :
    ∃ s0 k c, init false (Ex.st (α := α) asym) = .ok s0 ∧
      Steps (surfaceAct false s0) k (Conf.begin s0 3) c ∧ c.Done :=
  C29_completes (run_ok (Ex.ready asym) (by simp) (by simp)) (by omega)

/-- **C29** for well-formed inputs: in a release build, with any number of threads, the outputs are
the ones of the sequential loop. -/
theorem C29_ready {s : St α} {d : Dims} (hr : RunReady s.inp d) {T : Nat} (hT : 0 < T) :
    ∃ s' reps s0, run false s = .ok (s', reps) ∧ init false s = .ok s0 ∧
      (∃ k c, Steps (surfaceAct false s0) k (Conf.begin s0 T) c ∧ c.Done) ∧
      ∀ k c, Steps (surfaceAct false s0) k (Conf.begin s0 T) c →
        ¬ c.Faulty ∧ ¬ c.Racy ∧ (c.Done → s0.withShared c.mem.sh = s') := by
  have h := run_ok (dbg := false) hr (by simp) (by simp)
  obtain ⟨s0, k, c, h0, hc, hD⟩ := C29_completes h hT
  obtain ⟨s1, h1, h2, -⟩ := C29_parallel h
  rw [h0] at h1; cases h1
  exact ⟨_, _, s0, h, h0, ⟨k, c, hc, hD⟩, fun k c hc =>
    ⟨(h2 T k c hc).1, (h2 T k c hc).2.1, fun hD => ((h2 T k c hc).2.2.2 hD).1⟩⟩

example (asym : Bool) : RunReady (Ex.st (α := α) asym).inp (Ex.dims asym) := Ex.ready asym

end Booz
