import Verif.Basic

/-!
# Equational lemmas about faults, loops and initialised arrays
-/

namespace Booz

theorem loop_zero {σ : Type} (body : Nat → σ → Res σ) (s : σ) : loop 0 body s = .ok s := rfl
theorem loop_succ {σ : Type} (n : Nat) (body : Nat → σ → Res σ) (s : σ) :
    loop (n + 1) body s = loop n body s >>= body n := rfl

/-- A loop follows a trajectory `F` whenever each iteration does one step of it. -/
theorem loop_traj {σ : Type} {n : Nat} {body : Nat → σ → Res σ} (F : Nat → σ)
    (h : ∀ i, i < n → body i (F i) = .ok (F (i + 1))) : loop n body (F 0) = .ok (F n) := by
  induction n with
  | zero => rfl
  | succ n ih =>
    rw [loop_succ, ih (fun i hi => h i (by omega)), ok_bind, h n (by omega)]

theorem loop_traj' {σ : Type} {n : Nat} {body : Nat → σ → Res σ} {s s' : σ} (F : Nat → σ)
    (h : ∀ i, i < n → body i (F i) = .ok (F (i + 1))) (h0 : s = F 0) (h1 : s' = F n) :
    loop n body s = .ok s' := by
  rw [h0, h1, loop_traj F h]

theorem loop_congr {σ : Type} {n : Nat} {b b' : Nat → σ → Res σ} (s : σ)
    (h : ∀ i, i < n → ∀ s, b i s = b' i s) : loop n b s = loop n b' s := by
  induction n with
  | zero => rfl
  | succ n ih =>
    rw [loop_succ, loop_succ, ih (fun i hi => h i (by omega))]
    congr 1; funext t; exact h n (by omega) t

/-- An invariant of a loop that succeeds. -/
theorem loop_inv {σ : Type} {n : Nat} {body : Nat → σ → Res σ} (P : Nat → σ → Prop) {s t : σ}
    (h0 : P 0 s) (hs : ∀ i, i < n → ∀ a b, P i a → body i a = .ok b → P (i + 1) b)
    (h : loop n body s = .ok t) : P n t := by
  induction n generalizing t with
  | zero => cases h; exact h0
  | succ n ih =>
    rw [loop_succ] at h
    cases hl : loop n body s with
    | error e => rw [hl] at h; cases h
    | ok a =>
      rw [hl, ok_bind] at h
      exact hs n (by omega) a t (ih (fun i hi => hs i (by omega)) hl) h

namespace Vec
variable {β : Type}

@[simp] theorem size_tab (n : Nat) (f : Nat → β) : (tab n f).size = n := by simp [tab]

theorem getElem?_tab (n : Nat) (f : Nat → β) (i : Nat) :
    (tab n f)[i]? = if i < n then some (some (f i)) else none := by
  simp only [tab]
  split
  · next h => simp [h]
  · next h => simp [h]

theorem rdN_tab {n : Nat} {f : Nat → β} {i : Nat} (h : i < n) : (tab n f).rdN i = .ok (f i) := by
  simp only [rdN, getElem?_tab, h, if_true]

theorem rd_tab {n : Nat} {f : Nat → β} {i : Int} (h0 : 0 ≤ i) (h : i.toNat < n) :
    (tab n f).rd i = .ok (f i.toNat) := by
  simp [rd, h0, rdN_tab h]

theorem rdN_oob {v : Vec β} {i : Nat} (h : v.size ≤ i) : v.rdN i = ub "index out of range" := by
  simp [rdN, h]

theorem tab_congr {n : Nat} {f g : Nat → β} (h : ∀ i, i < n → f i = g i) : tab n f = tab n g := by
  simp only [tab]; congr 1; funext i; rw [h i i.2]

theorem tab_inj {n : Nat} {f g : Nat → β} (h : tab n f = tab n g) : ∀ i, i < n → f i = g i := by
  intro i hi
  have := congrArg (fun v : Vec β => v[i]?) h
  simpa only [getElem?_tab, hi, if_true, Option.some.injEq] using this

/-- Function update used to describe stores. -/
def upd (f : Nat → β) (i : Nat) (x : β) : Nat → β := fun k => if k = i then x else f k

theorem wrN_tab {n : Nat} {f : Nat → β} {i : Nat} {x : β} (h : i < n) :
    (tab n f).wrN i x = .ok (tab n (upd f i x)) := by
  simp only [wrN, size_tab, h, if_true]
  congr 1
  apply Array.ext_getElem?
  intro k
  rw [Array.set!_eq_setIfInBounds, Array.getElem?_setIfInBounds, getElem?_tab, getElem?_tab]
  simp only [upd, size_tab]
  by_cases hk : i = k
  · subst hk; simp [h]
  · simp [hk, Ne.symm hk]

theorem replicate_tab (n : Nat) (x : β) : Array.replicate n (some x) = tab n (fun _ => x) := by
  apply Array.ext_getElem?
  intro k
  rw [getElem?_tab]
  by_cases h : k < n <;> simp [h]

theorem setZero_tab {z : β} {n : Int} (h : 0 ≤ n) :
    setZero z n = .ok (tab n.toNat (fun _ => z)) := by
  simp [setZero, h, replicate_tab]

theorem tab_push {n : Nat} {f : Nat → β} {g : Nat → β} (h : ∀ i, i < n → f i = g i) :
    (tab n f).push (some (g n)) = tab (n + 1) g := by
  apply Array.ext_getElem?
  intro k
  rw [getElem?_tab, Array.getElem?_push, getElem?_tab, size_tab]
  by_cases h1 : k = n
  · subst h1; simp
  · by_cases h2 : k < n
    · have h3 : k < n + 1 := by omega
      simp [h1, h2, h3, h k h2]
    · have h3 : ¬ k < n + 1 := by omega
      simp [h1, h2, h3]

theorem tab_zero (f : Nat → β) : tab 0 f = #[] := by simp [tab]

theorem build_tab {n : Nat} {g : Nat → Res β} {f : Nat → β} (h : ∀ i, i < n → g i = .ok (f i)) :
    build n g = .ok (tab n f) := by
  unfold build
  refine loop_traj' (fun k => tab k f) ?_ (tab_zero f).symm rfl
  intro i hi
  simp only [h i hi, ok_bind, pure_eq_ok]
  rw [tab_push (fun _ _ => rfl)]

theorem val_tab {n : Nat} {f : Nat → β} {d : β} {i : Nat} (h : i < n) : (tab n f).val d i = f i := by
  simp only [val, getElem?_tab, h, if_true, Option.join_some, Option.getD_some]

theorem Full.eq_tab {v : Vec β} {n : Nat} (d : β) (h : v.Full n) : v = tab n (v.val d) := by
  apply Array.ext_getElem?
  intro k
  rw [getElem?_tab]
  split
  · next hk =>
    obtain ⟨x, hx⟩ := h.2 k hk
    simp [val, hx]
  · next hk =>
    rw [Array.getElem?_eq_none]; rw [h.1]; omega

theorem full_tab (n : Nat) (f : Nat → β) : (tab n f).Full n :=
  ⟨size_tab n f, fun i hi => ⟨f i, by rw [getElem?_tab, if_pos hi]⟩⟩

theorem Full.rdN {v : Vec β} {n : Nat} (d : β) (h : v.Full n) {i : Nat} (hi : i < n) :
    v.rdN i = .ok (v.val d i) := by
  obtain ⟨x, hx⟩ := h.2 i hi
  simp [Vec.rdN, Vec.val, hx]

end Vec

namespace Mat
variable {β : Type}

/-- Two-dimensional function update. -/
def upd (f : Nat → Nat → β) (i j : Nat) (x : β) : Nat → Nat → β :=
  fun a b => if a = i ∧ b = j then x else f a b

theorem idx_mod {r i j : Nat} (h : i < r) : (j * r + i) % r = i := by
  rw [Nat.add_comm, Nat.add_mul_mod_self_right, Nat.mod_eq_of_lt h]

theorem idx_div {r i j : Nat} (h : i < r) : (j * r + i) / r = j := by
  rw [Nat.add_comm, Nat.add_mul_div_right _ _ (by omega), Nat.div_eq_of_lt h]; omega

theorem idx_lt {r c i j : Nat} (hi : i < r) (hj : j < c) : j * r + i < r * c := by
  calc j * r + i < j * r + r := by omega
    _ = (j + 1) * r := by rw [Nat.add_mul, Nat.one_mul]
    _ ≤ c * r := Nat.mul_le_mul_right r (by omega)
    _ = r * c := Nat.mul_comm c r

theorem rows_tab (r c : Nat) (f : Nat → Nat → β) : (tab r c f).rows = r := rfl
theorem cols_tab (r c : Nat) (f : Nat → Nat → β) : (tab r c f).cols = c := rfl

theorem rdN_tab {r c : Nat} {f : Nat → Nat → β} {i j : Nat} (hi : i < r) (hj : j < c) :
    (tab r c f).rdN i j = .ok (f i j) := by
  simp only [rdN, tab, hi, hj, and_self, if_true]
  rw [Vec.rdN_tab (idx_lt hi hj), idx_mod hi, idx_div hi]

theorem rd_tab {r c : Nat} {f : Nat → Nat → β} {i j : Int} (hi0 : 0 ≤ i) (hi : i.toNat < r)
    (hj0 : 0 ≤ j) (hj : j.toNat < c) : (tab r c f).rd i j = .ok (f i.toNat j.toNat) := by
  simp [rd, hi0, hj0, rdN_tab hi hj]

theorem rdN_oob {a : Mat β} {i j : Nat} (h : ¬ (i < a.rows ∧ j < a.cols)) :
    a.rdN i j = ub "index out of range" := by simp [rdN, h]

theorem wrN_oob {a : Mat β} {i j : Nat} {x : β} (h : ¬ (i < a.rows ∧ j < a.cols)) :
    a.wrN i j x = ub "index out of range" := by simp [wrN, h]

theorem tab_congr {r c : Nat} {f g : Nat → Nat → β}
    (h : ∀ i, i < r → ∀ j, j < c → f i j = g i j) : tab r c f = tab r c g := by
  simp only [tab]
  congr 1
  apply Vec.tab_congr
  intro k hk
  have hr : 0 < r := by
    rcases Nat.eq_zero_or_pos r with h0 | h0
    · subst h0; simp at hk
    · exact h0
  exact h _ (Nat.mod_lt _ hr) _ (Nat.div_lt_of_lt_mul hk)

theorem tab_inj {r c : Nat} {f g : Nat → Nat → β} (h : tab r c f = tab r c g) :
    ∀ i, i < r → ∀ j, j < c → f i j = g i j := by
  intro i hi j hj
  have h1 := congrArg (fun a : Mat β => a.rdN i j) h
  simp only [rdN_tab hi hj] at h1
  exact Except.ok.inj h1

theorem wrN_tab {r c : Nat} {f : Nat → Nat → β} {i j : Nat} {x : β} (hi : i < r) (hj : j < c) :
    (tab r c f).wrN i j x = .ok (tab r c (upd f i j x)) := by
  simp only [wrN, tab, hi, hj, and_self, if_true]
  rw [Vec.wrN_tab (idx_lt hi hj), ok_bind, pure_eq_ok]
  congr 2
  apply Vec.tab_congr
  intro k hk
  simp only [Vec.upd, upd]
  have : k = j * r + i ↔ (k % r = i ∧ k / r = j) := by
    constructor
    · rintro rfl; exact ⟨idx_mod hi, idx_div hi⟩
    · rintro ⟨h1, h2⟩
      have := Nat.div_add_mod k r
      rw [h1, h2] at this
      rw [← this, Nat.mul_comm]
  simp only [this]

theorem setZero_tab {z : β} {r c : Int} (hr : 0 ≤ r) (hc : 0 ≤ c) :
    setZero z r c = .ok (tab r.toNat c.toNat (fun _ _ => z)) := by
  simp [setZero, hr, hc, tab, Vec.replicate_tab]

theorem val_tab {r c : Nat} {f : Nat → Nat → β} {d : β} {i j : Nat} (hi : i < r) (hj : j < c) :
    (tab r c f).val d i j = f i j := by
  simp only [val, tab]
  rw [Vec.val_tab (idx_lt hi hj), idx_mod hi, idx_div hi]

theorem Full.eq_tab {a : Mat β} {r c : Nat} (d : β) (h : a.Full r c) : a = tab r c (a.val d) := by
  obtain ⟨h1, h2, h3⟩ := h
  cases a with
  | mk rows cols data =>
    simp only at h1 h2 h3
    subst h1; subst h2
    simp only [tab]
    congr 1
    rw [h3.eq_tab d]
    apply Vec.tab_congr
    intro k hk
    simp only [val]
    congr 1
    · rw [← h3.eq_tab d]
    · rw [Nat.mul_comm]; exact (Nat.div_add_mod k rows).symm

theorem full_tab (r c : Nat) (f : Nat → Nat → β) : (tab r c f).Full r c :=
  ⟨rfl, rfl, Vec.full_tab _ _⟩

end Mat

end Booz
