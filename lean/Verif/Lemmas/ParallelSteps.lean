import Mathlib.Tactic.ByContra
import Verif.Lemmas.ParallelLocal

/-!
# All interleavings of programs that stay in their own column
-/

namespace Booz

variable {α : Type}

open Act

/-- Programs, each within its own column, that succeed when executed one after the other. -/
structure Plan (prog : Nat → Act α Unit) (seq : Nat → Common α) (n : Nat) : Prop where
  within : ∀ b, (prog b).Within b
  neat : ∀ b, (prog b).Neat .out
  silent : (seq 0).out = []
  step : ∀ b < n, (prog b).exec (seq b) = .ok ((), seq (b + 1))

/-- Thread `t` is executing iteration `b`, of which `a` remains. -/
def Conf.Runs (c : Conf α) (t b : Nat) (a : Act α Unit) : Prop := c.thr[t]? = some (some (b, a))

variable {prog : Nat → Act α Unit} {seq : Nat → Common α} {n : Nat}

namespace Plan

theorem frame (P : Plan prog seq n) {b i k : Nat} (h : i + k ≤ n) (hb : b < i ∨ i + k ≤ b) :
    Agree b (seq i) (seq (i + k)) := by
  induction k with
  | zero => exact .refl _
  | succ k ih =>
    refine (ih (by omega) (by omega)).trans ?_
    exact exec_frame (P.within (i + k)) (by omega) (P.step (i + k) (by omega))

theorem outside (P : Plan prog seq n) {b : Nat} (hb : n ≤ b) : Agree b (seq 0) (seq n) := by
  have h := P.frame (b := b) (i := 0) (k := n) (by omega) (by omega)
  rwa [Nat.zero_add] at h

theorem alone (P : Plan prog seq n) {b : Nat} (hb : b < n) :
    ∃ f, (prog b).exec (seq 0) = .ok ((), f) ∧ Agree b f (seq n) := by
  have h1 := P.frame (b := b) (i := 0) (k := b) (by omega) (by omega)
  rw [Nat.zero_add] at h1
  have h2 := P.frame (b := b) (i := b + 1) (k := n - (b + 1)) (by omega) (by omega)
  rw [show b + 1 + (n - (b + 1)) = n by omega] at h2
  obtain ⟨f, h3, h4⟩ := exec_congr (P.within b) h1.symm (P.step b hb)
  exact ⟨f, h3, h4.symm.trans h2⟩

end Plan

/-- What holds at all times, apart from the critical section. -/
structure Inv (prog : Nat → Act α Unit) (seq : Nat → Common α) (n : Nat) (c : Conf α) : Prop where
  nodup : c.todo.Nodup
  lt : ∀ b ∈ c.todo, b < n
  uniq : ∀ {t u b a a'}, c.Runs t b a → c.Runs u b a' → t = u
  begun : ∀ {t b a}, c.Runs t b a → b ∉ c.todo
  wait : ∀ b ∈ c.todo, Agree b c.mem (seq 0)
  within : ∀ {t b a}, c.Runs t b a → a.Within b
  goes : ∀ {t b a}, c.Runs t b a → ∃ f, a.exec c.mem = .ok ((), f) ∧ Agree b f (seq n)
  rest : ∀ b, b ∉ c.todo → (∀ t a, ¬ c.Runs t b a) → Agree b c.mem (seq n)

theorem runs_set {c : Conf α} {t b : Nat} {x y : Option (Nat × Act α Unit)} (h : c.thr[t]? = some y)
    {m : Common α} {td : List Nat} {h' : Option Nat} {u b' : Nat} {a' : Act α Unit} :
    (Conf.mk m td (c.thr.set t x) h').Runs u b' a' ↔
      (u = t ∧ x = some (b', a')) ∨ (u ≠ t ∧ c.Runs u b' a') := by
  have ht : t < c.thr.length := by
    by_contra hn
    rw [List.getElem?_eq_none (by omega)] at h; cases h
  unfold Conf.Runs
  show (c.thr.set t x)[u]? = _ ↔ _
  rw [List.getElem?_set]
  by_cases hu : t = u
  · subst hu; simp [ht]
  · simp [hu, Ne.symm hu]

/-- A thread makes a step within its iteration. -/
theorem Inv.keep {c : Conf α} (I : Inv prog seq n c) {t b : Nat} {a a' : Act α Unit}
    (h : c.Runs t b a) {m : Common α} {h' : Option Nat} (hw : a'.Within b)
    (he : a'.exec m = a.exec c.mem) (hf : ∀ b', b' ≠ b → Agree b' c.mem m) :
    Inv prog seq n ⟨m, c.todo, c.thr.set t (some (b, a')), h'⟩ := by
  have R := fun {u b' a''} => @runs_set α c t b (some (b, a')) _ h m c.todo h' u b' a''
  refine ⟨I.nodup, I.lt, ?_, ?_, ?_, ?_, ?_, ?_⟩
  · intro t1 t2 b1 a1 a2 h1 h2
    rcases R.mp h1 with ⟨e1, e2⟩ | ⟨e1, e2⟩ <;> rcases R.mp h2 with ⟨e3, e4⟩ | ⟨e3, e4⟩
    · rw [e1, e3]
    · cases e2; exact absurd (I.uniq e4 h) e3
    · cases e4; exact absurd (I.uniq e2 h) e1
    · exact I.uniq e2 e4
  · intro t1 b1 a1 h1
    rcases R.mp h1 with ⟨e1, e2⟩ | ⟨e1, e2⟩
    · cases e2; exact I.begun h
    · exact I.begun e2
  · intro b1 h1
    have hne : b1 ≠ b := fun e => I.begun h (e ▸ h1)
    exact (hf b1 hne).symm.trans (I.wait b1 h1)
  · intro t1 b1 a1 h1
    rcases R.mp h1 with ⟨e1, e2⟩ | ⟨e1, e2⟩
    · cases e2; exact hw
    · exact I.within e2
  · intro t1 b1 a1 h1
    rcases R.mp h1 with ⟨e1, e2⟩ | ⟨e1, e2⟩
    · cases e2
      obtain ⟨f, e3, e4⟩ := I.goes h
      exact ⟨f, he.trans e3, e4⟩
    · have hne : b1 ≠ b := fun e => e1 (I.uniq (e ▸ e2) h)
      obtain ⟨f, e3, e4⟩ := I.goes e2
      obtain ⟨f', e5, e6⟩ := exec_congr (I.within e2) (hf b1 hne) e3
      exact ⟨f', e5, e6.symm.trans e4⟩
  · intro b1 h1 h2
    have hne : b1 ≠ b := by
      rintro rfl
      exact h2 t a' (R.mpr (.inl ⟨rfl, rfl⟩))
    refine (hf b1 hne).symm.trans (I.rest b1 h1 fun t1 a1 h3 => ?_)
    have : t1 ≠ t := by
      rintro rfl
      have := h3.symm.trans h
      cases this; exact hne rfl
    exact h2 t1 a1 (R.mpr (.inr ⟨this, h3⟩))

theorem Inv.step (P : Plan prog seq n) {c c' : Conf α} (I : Inv prog seq n c) (h : Step prog c c') :
    Inv prog seq n c' := by
  cases h with
  | @start t b h hb =>
    have R := fun {u b' a''} =>
      @runs_set α c t b (some (b, prog b)) _ h c.mem (c.todo.erase b) c.holder u b' a''
    have hn : ∀ u a, ¬ c.Runs u b a := fun u a h1 => I.begun h1 hb
    have hbn := I.lt b hb
    refine ⟨I.nodup.erase b, fun b1 h1 => I.lt b1 (List.mem_of_mem_erase h1), ?_, ?_, ?_, ?_, ?_, ?_⟩
    · intro t1 t2 b1 a1 a2 h1 h2
      rcases R.mp h1 with ⟨e1, e2⟩ | ⟨e1, e2⟩ <;> rcases R.mp h2 with ⟨e3, e4⟩ | ⟨e3, e4⟩
      · rw [e1, e3]
      · cases e2; exact absurd e4 (hn _ _)
      · cases e4; exact absurd e2 (hn _ _)
      · exact I.uniq e2 e4
    · intro t1 b1 a1 h1
      rcases R.mp h1 with ⟨e1, e2⟩ | ⟨e1, e2⟩
      · cases e2; exact fun h => (I.nodup.mem_erase_iff.mp h).1 rfl
      · exact fun h => I.begun e2 (List.mem_of_mem_erase h)
    · intro b1 h1; exact I.wait b1 (List.mem_of_mem_erase h1)
    · intro t1 b1 a1 h1
      rcases R.mp h1 with ⟨e1, e2⟩ | ⟨e1, e2⟩
      · cases e2; exact P.within b
      · exact I.within e2
    · intro t1 b1 a1 h1
      rcases R.mp h1 with ⟨e1, e2⟩ | ⟨e1, e2⟩
      · cases e2
        obtain ⟨f, e3, e4⟩ := P.alone hbn
        obtain ⟨f', e5, e6⟩ := exec_congr (P.within b) (I.wait b hb).symm e3
        exact ⟨f', e5, e6.symm.trans e4⟩
      · exact I.goes e2
    · intro b1 h1 h2
      have hne : b1 ≠ b := by
        rintro rfl
        exact h2 t (prog b1) (R.mpr (.inl ⟨rfl, rfl⟩))
      refine I.rest b1 (fun h3 => h1 (I.nodup.mem_erase_iff.mpr ⟨hne, h3⟩)) fun t1 a1 h3 => ?_
      have : t1 ≠ t := by
        rintro rfl
        have := h3.symm.trans h
        cases this
      exact h2 t1 a1 (R.mpr (.inr ⟨this, h3⟩))
  | @load t b x k v h hv =>
    exact I.keep h ((I.within h).2 v) (by simp only [exec, hv]; rfl) fun b' _ => .refl _
  | @store t b x v k sh h hv =>
    obtain ⟨h1, rfl⟩ := Shared.store_inv hv
    have hw := I.within h
    exact I.keep h hw.2 (by simp only [exec, hv]; rfl) fun b' hb' => .store_other h1 (by rw [hw.1]; exact hb'.symm)
  | @print t b l k h =>
    have hw := I.within h
    exact I.keep h hw.2 rfl fun b' hb' => .print_other _ (by rw [hw.1]; exact hb'.symm)
  | @lock t b k h hf =>
    have hw : (Act.lock k).Within b := I.within h
    exact I.keep h hw rfl fun b' _ => .refl _
  | @unlock t b k h hf =>
    have hw : (Act.unlock k).Within b := I.within h
    exact I.keep h hw rfl fun b' _ => .refl _
  | @finish t b h =>
    have R := fun {u b' a''} => @runs_set α c t b none _ h c.mem c.todo c.holder u b' a''
    refine ⟨I.nodup, I.lt, ?_, ?_, I.wait, ?_, ?_, ?_⟩
    · intro t1 t2 b1 a1 a2 h1 h2
      rcases R.mp h1 with ⟨e1, e2⟩ | ⟨e1, e2⟩
      · cases e2
      rcases R.mp h2 with ⟨e3, e4⟩ | ⟨e3, e4⟩
      · cases e4
      exact I.uniq e2 e4
    · intro t1 b1 a1 h1
      rcases R.mp h1 with ⟨e1, e2⟩ | ⟨e1, e2⟩
      · cases e2
      · exact I.begun e2
    · intro t1 b1 a1 h1
      rcases R.mp h1 with ⟨e1, e2⟩ | ⟨e1, e2⟩
      · cases e2
      · exact I.within e2
    · intro t1 b1 a1 h1
      rcases R.mp h1 with ⟨e1, e2⟩ | ⟨e1, e2⟩
      · cases e2
      · exact I.goes e2
    · intro b1 h1 h2
      by_cases hb : b1 = b
      · subst hb
        obtain ⟨f, e1, e2⟩ := I.goes h
        cases e1; exact e2
      · refine I.rest b1 h1 fun t1 a1 h3 => ?_
        have : t1 ≠ t := by
          rintro rfl
          have := h3.symm.trans h
          cases this; exact hb rfl
        exact h2 t1 a1 (R.mpr (.inr ⟨this, h3⟩))

/-! ### The critical section -/

/-- The line belongs to a report. -/
def Line.ofReport : Line α → Bool
  | .solving _ _ => false
  | _ => true

/-- The two lines of a report. -/
def block (r : Report α) : List (Line α) := [.first r, .second r]

/-- The part of the current block that has been printed. -/
def Act.Stage.tail : Stage α → List (Line α)
  | .in1 r => [.first r]
  | _ => []

structure LockInv (c : Conf α) (st : Stage α) : Prop where
  free : c.holder = none → st = .out
  held : ∀ t, c.holder = some t → st ≠ .out ∧ ∃ b a, c.Runs t b a ∧ a.Neat st
  others : ∀ {t b a}, c.Runs t b a → c.holder ≠ some t → a.Neat .out
  blocks : ∃ L : List (Report α), c.mem.out.filter Line.ofReport = L.flatMap block ++ st.tail

theorem LockInv.neat {c : Conf α} {st : Stage α} (I : LockInv c st) {t b : Nat} {a : Act α Unit}
    (h : c.Runs t b a) : a.Neat (if c.holder = some t then st else .out) := by
  split
  · rename_i hh
    obtain ⟨-, b', a', h1, h2⟩ := I.held t hh
    have := h1.symm.trans h; cases this; exact h2
  · exact I.others h (by assumption)

/-- A step by a thread that leaves the critical section as it is. -/
theorem LockInv.keep {c : Conf α} {st : Stage α} (I : LockInv c st) {t : Nat}
    {x y : Option (Nat × Act α Unit)} (h : c.thr[t]? = some y) {m : Common α} {td : List Nat}
    (hn : ∀ b a, x = some (b, a) → a.Neat .out) (hh : c.holder ≠ some t)
    (ho : m.out.filter Line.ofReport = c.mem.out.filter Line.ofReport) :
    LockInv ⟨m, td, c.thr.set t x, c.holder⟩ st := by
  have R := fun {u b' a''} => @runs_set α c t 0 x _ h m td c.holder u b' a''
  refine ⟨I.free, ?_, ?_, ?_⟩
  · intro u hu
    obtain ⟨h1, b, a, h2, h3⟩ := I.held u hu
    refine ⟨h1, b, a, R.mpr (.inr ⟨?_, h2⟩), h3⟩
    rintro rfl; exact hh hu
  · intro u b a h1 h2
    rcases R.mp h1 with ⟨e1, e2⟩ | ⟨e1, e2⟩
    · exact hn b a e2
    · exact I.others e2 h2
  · obtain ⟨L, hL⟩ := I.blocks
    exact ⟨L, ho.trans hL⟩

/-- A step by the thread in the critical section. -/
theorem LockInv.move {c : Conf α} {st st' : Stage α} (I : LockInv c st) {t b : Nat} {a a' : Act α Unit}
    (h : c.Runs t b a) (hh : c.holder = some t) {m : Common α} (hn : a'.Neat st') (hs : st' ≠ .out)
    (ho : ∃ L : List (Report α), m.out.filter Line.ofReport = L.flatMap block ++ st'.tail) :
    LockInv ⟨m, c.todo, c.thr.set t (some (b, a')), c.holder⟩ st' := by
  have R := fun {u b' a''} => @runs_set α c t b (some (b, a')) _ h m c.todo c.holder u b' a''
  refine ⟨fun e => ?_, ?_, ?_, ho⟩
  · rw [show c.holder = none from e] at hh; cases hh
  · intro u hu
    have : u = t := by
      have := (show c.holder = some u from hu).symm.trans hh
      cases this; rfl
    subst this
    exact ⟨hs, b, a', R.mpr (.inl ⟨rfl, rfl⟩), hn⟩
  · intro u b1 a1 h1 h2
    rcases R.mp h1 with ⟨e1, e2⟩ | ⟨e1, e2⟩
    · subst e1; exact absurd hh h2
    · exact I.others e2 h2

theorem LockInv.step (P : Plan prog seq n) {c c' : Conf α} {st : Stage α} (I : LockInv c st)
    (h : Step prog c c') : ∃ st', LockInv c' st' := by
  cases h with
  | @start t b h hb =>
    have hh : c.holder ≠ some t := by
      intro hh
      obtain ⟨-, b', a', h1, -⟩ := I.held t hh
      have := h1.symm.trans h; cases this
    exact ⟨st, I.keep h (by rintro b a ⟨⟩; exact P.neat _) hh rfl⟩
  | @load t b x k v h hv =>
    have hN := I.neat h
    have hh : c.holder ≠ some t := by
      intro hh; rw [if_pos hh] at hN; exact (I.held t hh).1 hN.1
    exact ⟨st, I.keep h (by rintro b a ⟨⟩; exact hN.2 v) hh rfl⟩
  | @store t b x v k sh h hv =>
    have hN := I.neat h
    have hh : c.holder ≠ some t := by
      intro hh; rw [if_pos hh] at hN; exact (I.held t hh).1 hN.1
    exact ⟨st, I.keep h (by rintro b a ⟨⟩; exact hN.2) hh rfl⟩
  | @print t b l k h =>
    have hN := I.neat h
    cases l with
    | solving b1 js =>
      have hh : c.holder ≠ some t := by
        intro hh; rw [if_pos hh] at hN; exact (I.held t hh).1 hN.1
      refine ⟨st, I.keep h (by rintro b a ⟨⟩; exact hN.2) hh ?_⟩
      simp [List.filter_append, Line.ofReport]
    | first r =>
      have hh : c.holder = some t := by
        by_contra hh; rw [if_neg hh] at hN; cases hN.1
      rw [if_pos hh] at hN
      obtain ⟨L, hL⟩ := I.blocks
      refine ⟨.in1 r, I.move h hh hN.2 (by simp) ⟨L, ?_⟩⟩
      rw [hN.1] at hL
      simp only [List.filter_append, hL]
      simp [Line.ofReport, Stage.tail]
    | second r =>
      have hh : c.holder = some t := by
        by_contra hh; rw [if_neg hh] at hN; cases hN.1
      rw [if_pos hh] at hN
      obtain ⟨L, hL⟩ := I.blocks
      refine ⟨.in2, I.move h hh hN.2 (by simp) ⟨L ++ [r], ?_⟩⟩
      rw [hN.1] at hL
      simp only [List.filter_append, hL]
      simp [Line.ofReport, Stage.tail, block]
  | @lock t b k h hf =>
    have hN := I.neat h
    rw [if_neg (by rw [hf]; simp)] at hN
    have R := fun {u b' a''} => @runs_set α c t b (some (b, k)) _ h c.mem c.todo (some t) u b' a''
    refine ⟨.in0, fun e => (by cases e), ?_, ?_, ?_⟩
    · rintro u ⟨⟩
      exact ⟨by simp, b, k, R.mpr (.inl ⟨rfl, rfl⟩), hN.2⟩
    · intro u b1 a1 h1 h2
      rcases R.mp h1 with ⟨e1, e2⟩ | ⟨e1, e2⟩
      · subst e1; exact absurd rfl h2
      · exact I.others e2 (by rw [hf]; simp)
    · obtain ⟨L, hL⟩ := I.blocks
      rw [I.free hf] at hL
      exact ⟨L, hL⟩
  | @unlock t b k h hf =>
    have hN := I.neat h
    rw [if_pos hf] at hN
    have R := fun {u b' a''} => @runs_set α c t b (some (b, k)) _ h c.mem c.todo none u b' a''
    refine ⟨.out, fun _ => rfl, fun u hu => (by cases hu), ?_, ?_⟩
    · intro u b1 a1 h1 h2
      rcases R.mp h1 with ⟨e1, e2⟩ | ⟨e1, e2⟩
      · cases e2; exact hN.2
      · refine I.others e2 ?_
        rw [hf]; rintro ⟨⟩; exact e1 rfl
    · obtain ⟨L, hL⟩ := I.blocks
      rw [hN.1] at hL
      exact ⟨L, hL⟩
  | @finish t b h =>
    have hN := I.neat h
    have hh : c.holder ≠ some t := by
      intro hh; rw [if_pos hh] at hN; exact (I.held t hh).1 hN
    exact ⟨st, I.keep h (by rintro b a ⟨⟩) hh rfl⟩

/-! ### The beginning, and what follows -/

/-- The beginning of the parallel loop. -/
def Conf.starting (seq : Nat → Common α) (n T : Nat) : Conf α :=
  ⟨seq 0, List.range n, List.replicate T none, none⟩

theorem starting_idle {T t b : Nat} {a : Act α Unit} : ¬ (Conf.starting seq n T).Runs t b a := by
  unfold Conf.Runs Conf.starting
  simp only [List.getElem?_replicate]
  split <;> simp

theorem Plan.inv (P : Plan prog seq n) {T k : Nat} {c : Conf α}
    (h : Steps prog k (Conf.starting seq n T) c) : Inv prog seq n c ∧ ∃ st, LockInv c st := by
  generalize hs : Conf.starting seq n T = c0 at h
  induction h with
  | refl c =>
    subst hs
    refine ⟨⟨List.nodup_range, by simp [Conf.starting], ?_, ?_, fun b _ => .refl _, ?_, ?_, ?_⟩, Stage.out, ?_⟩
    · intro t u b a a' h1; exact absurd h1 starting_idle
    · intro t b a h1; exact absurd h1 starting_idle
    · intro t b a h1; exact absurd h1 starting_idle
    · intro t b a h1; exact absurd h1 starting_idle
    · intro b h1 _
      exact P.outside (by simpa [Conf.starting] using h1)
    · refine ⟨fun _ => rfl, fun t h => (by cases h), fun h1 => absurd h1 starting_idle, [], ?_⟩
      show (seq 0).out.filter _ = _
      rw [P.silent]; rfl
  | tail h h' ih =>
    obtain ⟨I, st, J⟩ := ih hs
    exact ⟨I.step P h', J.step P h'⟩

theorem Inv.not_faulty {c : Conf α} {st : Stage α} (I : Inv prog seq n c) (J : LockInv c st) :
    ¬ c.Faulty := by
  rintro ⟨t, b, a, h, hF⟩
  obtain ⟨f, he, -⟩ := I.goes h
  have hN := J.neat h
  rcases hF with ⟨e, rfl⟩ | ⟨x, k, e, rfl, h1⟩ | ⟨x, v, k, e, rfl, h1⟩ | ⟨k, rfl, h1⟩
  · cases he
  · simp only [exec, h1] at he; cases he
  · simp only [exec, h1] at he; cases he
  · rw [if_neg h1] at hN; cases hN.1

theorem Inv.not_racy {c : Conf α} (I : Inv prog seq n c) : ¬ c.Racy := by
  rintro ⟨t, u, b, b', a, a', x, w, w', htu, h, h', hx, hx', -⟩
  have key : ∀ {a : Act α Unit} {b : Nat} {w : Bool}, a.Within b → a.access = some (x, w) → x.b = b := by
    intro a b w hW hA
    cases a with
    | load c k => cases hA; exact hW.1
    | store c v k => cases hA; exact hW.1
    | _ => cases hA
  have e1 := key (I.within h) hx
  have e2 := key (I.within h') hx'
  rw [e1] at e2
  subst e2
  exact htu (I.uniq h h')

theorem Inv.progress {c : Conf α} {st : Stage α} (I : Inv prog seq n c) (J : LockInv c st)
    (hT : c.thr ≠ []) (hD : ¬ c.Done) : ∃ c', Step prog c c' := by
  -- a running thread that is not waiting for the critical section can go on
  have go : ∀ {t b a}, c.Runs t b a → (∀ k, a = .lock k → c.holder = none) → ∃ c', Step prog c c' := by
    intro t b a h hl
    obtain ⟨f, he, -⟩ := I.goes h
    have hN := J.neat h
    cases a with
    | ret x => exact ⟨_, .finish h⟩
    | fault e => cases he
    | load x k =>
      obtain ⟨v, h1, -⟩ := bind_ok he
      exact ⟨_, .load h h1⟩
    | store x v k =>
      obtain ⟨sh, h1, -⟩ := bind_ok he
      exact ⟨_, .store h h1⟩
    | print l k => exact ⟨_, .print h⟩
    | lock k => exact ⟨_, .lock h (hl k rfl)⟩
    | unlock k =>
      have hh : c.holder = some t := by
        by_contra hh; rw [if_neg hh] at hN; cases hN.1
      exact ⟨_, .unlock h hh⟩
  by_cases hr : ∃ t b a, c.Runs t b a
  · obtain ⟨t, b, a, h⟩ := hr
    cases hh : c.holder with
    | none => exact go h fun _ _ => hh
    | some u =>
      obtain ⟨h1, b', a', h2, h3⟩ := J.held u hh
      refine go h2 fun k hk => ?_
      subst hk
      exact absurd h3.1 h1
  · have hidle : ∀ x ∈ c.thr, x = none := by
      intro x hx
      cases x with
      | none => rfl
      | some p =>
        obtain ⟨t, ht, e⟩ := List.mem_iff_getElem.mp hx
        exact absurd ⟨t, p.1, p.2, by unfold Conf.Runs; rw [List.getElem?_eq_getElem ht, e]⟩ hr
    obtain ⟨x, l, hx⟩ := List.exists_cons_of_ne_nil hT
    have hx0 : c.thr[0]? = some none := by
      rw [hx]
      rw [hidle x (by rw [hx]; simp)]; rfl
    cases htd : c.todo with
    | nil => exact absurd ⟨htd, hidle⟩ hD
    | cons b l => exact ⟨_, .start hx0 (b := b) (by rw [htd]; simp)⟩

theorem Inv.done {c : Conf α} {st : Stage α} (I : Inv prog seq n c) (J : LockInv c st) (hD : c.Done) :
    c.mem.sh = (seq n).sh ∧ (∀ b, c.mem.out.filter (fun l => l.js_b == b) =
        (seq n).out.filter (fun l => l.js_b == b)) ∧ c.mem.out.Perm (seq n).out ∧
      ∃ L : List (Report α), c.mem.out.filter Line.ofReport = L.flatMap block := by
  have hr : ∀ t b a, ¬ c.Runs t b a := by
    intro t b a h
    have := hD.2 _ (List.mem_of_getElem? h)
    cases this
  have h1 : ∀ b, Agree b c.mem (seq n) := fun b => I.rest b (by rw [hD.1]; simp) fun t a => hr t b a
  have h2 : c.holder = none := by
    cases hh : c.holder with
    | none => rfl
    | some t => obtain ⟨-, b, a, h3, -⟩ := J.held t hh; exact absurd h3 (hr t b a)
  obtain ⟨h3, h4⟩ := agree_all h1
  refine ⟨h3, fun b => (h1 b).out, h4, ?_⟩
  obtain ⟨L, hL⟩ := J.blocks
  rw [J.free h2] at hL
  exact ⟨L, by rw [hL]; simp [Stage.tail]⟩

/-! ### The number of steps -/

/-- Steps still to be made by a thread. -/
def left (m : Common α) : Option (Nat × Act α Unit) → Nat
  | none => 0
  | some (_, a) => a.cost m

/-- Steps still to be made. -/
def pot (prog : Nat → Act α Unit) (m0 : Common α) (c : Conf α) : Nat :=
  (c.todo.map fun b => 1 + (prog b).cost m0).sum + (c.thr.map (left c.mem)).sum

theorem sum_set {β : Type} {f g : β → Nat} {l : List β} {t : Nat} {x x' : β} (h : l[t]? = some x)
    (hg : ∀ u y, u ≠ t → l[u]? = some y → g y = f y) :
    ((l.set t x').map g).sum + f x = (l.map f).sum + g x' := by
  induction l generalizing t with
  | nil => simp at h
  | cons z l ih =>
    cases t with
    | zero =>
      simp only [List.getElem?_cons_zero, Option.some.injEq] at h
      subst h
      have : l.map g = l.map f := by
        apply List.map_congr_left
        intro y hy
        obtain ⟨u, hu, rfl⟩ := List.mem_iff_getElem.mp hy
        exact hg (u + 1) _ (by omega) (by simp [hu])
      simp only [List.set_cons_zero, List.map_cons, List.sum_cons, this]
      omega
    | succ t =>
      have h1 := ih (t := t) (by simpa using h) fun u y hu hy => hg (u + 1) y (by omega) (by simpa using hy)
      have h2 := hg 0 z (by omega) rfl
      simp only [List.set_cons_succ, List.map_cons, List.sum_cons]
      omega

theorem pot_step (P : Plan prog seq n) {c c' : Conf α} (I : Inv prog seq n c) (h : Step prog c c') :
    pot prog (seq 0) c' + 1 = pot prog (seq 0) c := by
  have same : ∀ {t b a m}, c.Runs t b a → (∀ b', b' ≠ b → Agree b' c.mem m) →
      ∀ u y, u ≠ t → c.thr[u]? = some y → left m y = left c.mem y := by
    intro t b a m h hf u y hu hy
    cases y with
    | none => rfl
    | some p =>
      obtain ⟨b', a'⟩ := p
      have hne : b' ≠ b := by rintro rfl; exact hu (I.uniq hy h)
      exact (cost_congr (I.within hy) (hf b' hne)).symm
  cases h with
  | @start t b h hb =>
    have h1 := sum_set (f := left c.mem) (g := left c.mem) (x' := some (b, prog b)) h fun _ _ _ _ => rfl
    have h2 : (c.todo.map fun b => 1 + (prog b).cost (seq 0)).sum =
        1 + (prog b).cost (seq 0) + ((c.todo.erase b).map fun b => 1 + (prog b).cost (seq 0)).sum := by
      rw [((List.perm_cons_erase hb).map _).sum_nat]; simp
    have h3 : left c.mem (some (b, prog b)) = (prog b).cost (seq 0) := cost_congr (P.within b) (I.wait b hb)
    have h4 : left c.mem none = 0 := rfl
    simp only [pot]
    omega
  | @load t b x k v h hv =>
    have h1 := sum_set (x' := some (b, k v)) h (same h fun b' _ => .refl c.mem)
    have h3 : left c.mem (some (b, .load x k)) = 1 + (k v).cost c.mem := by
      simp only [left, cost, hv]
    have h4 : left c.mem (some (b, k v)) = (k v).cost c.mem := rfl
    simp only [pot]
    omega
  | @store t b x v k sh h hv =>
    obtain ⟨h0, e⟩ := Shared.store_inv hv
    have hw := I.within h
    have hf : ∀ b', b' ≠ b → Agree b' c.mem ⟨sh, c.mem.out⟩ := by
      intro b' hb'
      subst e
      exact .store_other h0 (by rw [hw.1]; exact hb'.symm)
    have h1 := sum_set (x' := some (b, k)) h (same h hf)
    have h3 : left c.mem (some (b, .store x v k)) = 1 + k.cost ⟨sh, c.mem.out⟩ := by
      simp only [left, cost, hv]
    have h4 : left ⟨sh, c.mem.out⟩ (some (b, k)) = k.cost ⟨sh, c.mem.out⟩ := rfl
    simp only [pot]
    omega
  | @print t b l k h =>
    have hw := I.within h
    have h1 := sum_set (x' := some (b, k)) h (same h fun b' hb' =>
      .print_other c.mem (l := l) (by rw [hw.1]; exact hb'.symm))
    have h3 : left c.mem (some (b, .print l k)) = 1 + k.cost ⟨c.mem.sh, c.mem.out ++ [l]⟩ := rfl
    have h4 : left ⟨c.mem.sh, c.mem.out ++ [l]⟩ (some (b, k)) = k.cost ⟨c.mem.sh, c.mem.out ++ [l]⟩ := rfl
    simp only [pot]
    omega
  | @lock t b k h hf =>
    have h1 := sum_set (x' := some (b, k)) h (same h fun b' _ => .refl c.mem)
    have h3 : left c.mem (some (b, .lock k)) = 1 + k.cost c.mem := rfl
    have h4 : left c.mem (some (b, k)) = k.cost c.mem := rfl
    simp only [pot]
    omega
  | @unlock t b k h hf =>
    have h1 := sum_set (x' := some (b, k)) h (same h fun b' _ => .refl c.mem)
    have h3 : left c.mem (some (b, .unlock k)) = 1 + k.cost c.mem := rfl
    have h4 : left c.mem (some (b, k)) = k.cost c.mem := rfl
    simp only [pot]
    omega
  | @finish t b h =>
    have h1 := sum_set (x' := none) h (same h fun b' _ => .refl c.mem)
    have h3 : left c.mem (some (b, .ret ())) = 1 := rfl
    have h4 : left c.mem none = 0 := rfl
    simp only [pot]
    omega

theorem Plan.steps (P : Plan prog seq n) {T k : Nat} {c : Conf α}
    (h : Steps prog k (Conf.starting seq n T) c) :
    k + pot prog (seq 0) c = pot prog (seq 0) (Conf.starting seq n T) := by
  generalize hs : Conf.starting seq n T = c0 at h
  induction h with
  | refl c => omega
  | tail h h' ih =>
    have h1 := ih hs
    subst hs
    have h2 := pot_step P (P.inv h).1 h'
    omega

end Booz
