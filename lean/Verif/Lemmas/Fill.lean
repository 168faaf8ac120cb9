import Verif.Lemmas.Inv

/-!
# Arrays whose cells may still be uninitialised, and loops that fill them
-/

namespace Booz

namespace Vec
variable {β : Type}

/-- The array with cells `f 0, …, f (n-1)`. -/
def tabO (n : Nat) (f : Nat → Option β) : Vec β := Array.ofFn (n := n) fun i => f i

theorem size_tabO (n : Nat) (f : Nat → Option β) : (tabO n f).size = n := by simp [tabO]

theorem getElem?_tabO (n : Nat) (f : Nat → Option β) (i : Nat) :
    (tabO n f)[i]? = if i < n then some (f i) else none := by
  simp only [tabO]
  split
  · next h => simp [h]
  · next h => simp [h]

theorem tabO_congr {n : Nat} {f g : Nat → Option β} (h : ∀ i, i < n → f i = g i) :
    tabO n f = tabO n g := by
  simp only [tabO]; congr 1; funext i; rw [h i i.2]

theorem tabO_some (n : Nat) (f : Nat → β) : tabO n (fun i => some (f i)) = tab n f := rfl

theorem eq_tabO (v : Vec β) : v = tabO v.size (fun i => v[i]?.join) := by
  apply Array.ext_getElem?
  intro k
  rw [getElem?_tabO]
  by_cases h : k < v.size <;> simp [h]

theorem resize_tabO (v : Vec β) {n : Int} (h : 0 ≤ n) :
    ∃ f, v.resize n = .ok (tabO n.toNat f) := by
  unfold resize
  rw [if_pos h]
  split
  · next hs => exact ⟨_, by rw [← hs, ← eq_tabO v]⟩
  · refine ⟨fun _ => none, ?_⟩
    congr 1
    apply Array.ext_getElem?
    intro k
    rw [getElem?_tabO]
    by_cases h : k < n.toNat <;> simp [h]

theorem wrN_tabO {n : Nat} {f : Nat → Option β} {i : Nat} {x : β} (h : i < n) :
    (tabO n f).wrN i x = .ok (tabO n (upd f i (some x))) := by
  simp only [wrN, size_tabO, h, if_true]
  congr 1
  apply Array.ext_getElem?
  intro k
  rw [Array.set!_eq_setIfInBounds, Array.getElem?_setIfInBounds, getElem?_tabO, getElem?_tabO]
  simp only [upd, size_tabO]
  by_cases hk : i = k
  · subst hk; simp [h]
  · simp [hk, Ne.symm hk]

/-- First `k` cells written with `h`, the rest as before. -/
def fillTo (f : Nat → Option β) (h : Nat → β) (k : Nat) : Nat → Option β :=
  fun i => if i < k then some (h i) else f i

theorem wrN_fillTo {n : Nat} {f : Nat → Option β} {h : Nat → β} {k : Nat} (hk : k < n) :
    (tabO n (fillTo f h k)).wrN k (h k) = .ok (tabO n (fillTo f h (k + 1))) := by
  rw [wrN_tabO hk]
  congr 1
  apply tabO_congr
  intro i hi
  simp only [upd, fillTo]
  by_cases h1 : i = k
  · subst h1; simp
  · by_cases h2 : i < k
    · have : i < k + 1 := by omega
      simp [h1, h2, this]
    · have : ¬ i < k + 1 := by omega
      simp [h1, h2, this]

theorem fillTo_zero {n : Nat} {f : Nat → Option β} {h : Nat → β} :
    tabO n f = tabO n (fillTo f h 0) := tabO_congr fun i _ => by simp [fillTo]

theorem fillTo_all {n : Nat} {f : Nat → Option β} {h : Nat → β} :
    tab n h = tabO n (fillTo f h n) := by
  rw [← tabO_some]; exact tabO_congr fun i hi => by simp [fillTo, hi]

theorem fill {n : Nat} {f : Nat → Option β} {g : Nat → Res β} {h : Nat → β}
    (hg : ∀ j < n, g j = .ok (h j)) :
    loop n (fun j (v : Vec β) => do let x ← g j; v.wrN j x) (tabO n f) = .ok (tab n h) := by
  refine loop_traj' (fun k => tabO n (fillTo f h k)) ?_ fillTo_zero fillTo_all
  intro j hj
  show (do let x ← g j; (tabO n (fillTo f h j)).wrN j x) = _
  rw [hg j hj, ok_bind, wrN_fillTo hj]

end Vec

namespace Mat
variable {β : Type}

/-- The array with cells `f i j`. -/
def tabO (r c : Nat) (f : Nat → Nat → Option β) : Mat β :=
  ⟨r, c, Vec.tabO (r * c) fun k => f (k % r) (k / r)⟩

theorem tabO_congr {r c : Nat} {f g : Nat → Nat → Option β}
    (h : ∀ i, i < r → ∀ j, j < c → f i j = g i j) : tabO r c f = tabO r c g := by
  simp only [tabO]
  congr 1
  apply Vec.tabO_congr
  intro k hk
  have hr : 0 < r := by
    rcases Nat.eq_zero_or_pos r with h0 | h0
    · subst h0; simp at hk
    · exact h0
  exact h _ (Nat.mod_lt _ hr) _ (Nat.div_lt_of_lt_mul hk)

theorem tabO_some (r c : Nat) (f : Nat → Nat → β) : tabO r c (fun i j => some (f i j)) = tab r c f :=
  rfl

theorem eq_tabO {r c : Nat} {v : Vec β} (h : v.size = r * c) :
    (⟨r, c, v⟩ : Mat β) = tabO r c (fun i j => v[j * r + i]?.join) := by
  unfold tabO
  congr 1
  conv => lhs; rw [Vec.eq_tabO v, h]
  apply Vec.tabO_congr
  intro k _
  have : k / r * r + k % r = k := by rw [Nat.mul_comm]; exact Nat.div_add_mod k r
  show _ = v[k / r * r + k % r]?.join
  rw [this]

theorem resize_tabO (a : Mat β) {r c : Int} (hr : 0 ≤ r) (hc : 0 ≤ c) :
    ∃ f, a.resize r c = .ok (tabO r.toNat c.toNat f) := by
  unfold resize
  rw [if_pos ⟨hr, hc⟩]
  split
  · next hs => exact ⟨_, by rw [eq_tabO hs]⟩
  · exact ⟨_, by rw [eq_tabO (by simp)]⟩

theorem wrN_tabO {r c : Nat} {f : Nat → Nat → Option β} {i j : Nat} {x : β} (hi : i < r)
    (hj : j < c) : (tabO r c f).wrN i j x = .ok (tabO r c (upd f i j (some x))) := by
  simp only [wrN, tabO, hi, hj, and_self, if_true]
  rw [Vec.wrN_tabO (idx_lt hi hj), ok_bind, pure_eq_ok]
  congr 2
  apply Vec.tabO_congr
  intro k hk
  simp only [Vec.upd, upd]
  have : k = j * r + i ↔ (k % r = i ∧ k / r = j) := by
    constructor
    · rintro rfl; exact ⟨idx_mod hi, idx_div hi⟩
    · rintro ⟨h1, h2⟩
      have := Nat.div_add_mod k r
      rw [h1, h2] at this
      rw [← this, Nat.mul_comm]
  simp only [this]

/-- Columns before `j` written with `h`, and rows before `k` of column `j`. -/
def fillCol (f : Nat → Nat → Option β) (h : Nat → Nat → β) (j k : Nat) : Nat → Nat → Option β :=
  fun a b => if b < j ∨ (b = j ∧ a < k) then some (h a b) else f a b

/-- Rows before `j` written with `h`, and columns before `k` of row `j` written with `h'`. -/
def fillRow (f : Nat → Nat → Option β) (h : Nat → Nat → β) (h' : Nat → β) (j k : Nat) :
    Nat → Nat → Option β :=
  fun a b => if a < j then some (h a b) else if a = j ∧ b < k then some (h' b) else f a b

variable {r c : Nat} {f : Nat → Nat → Option β} {h : Nat → Nat → β} {h' : Nat → β}

theorem wrN_fillCol {j k : Nat} (hk : k < r) (hj : j < c) :
    (tabO r c (fillCol f h j k)).wrN k j (h k j) = .ok (tabO r c (fillCol f h j (k + 1))) := by
  rw [wrN_tabO hk hj]
  congr 1
  apply tabO_congr
  intro a _ b _
  simp only [upd, fillCol]
  by_cases h1 : a = k ∧ b = j
  · obtain ⟨rfl, rfl⟩ := h1; simp
  · rw [if_neg h1]
    by_cases h2 : b < j ∨ (b = j ∧ a < k)
    · rw [if_pos h2, if_pos (by omega)]
    · rw [if_neg h2, if_neg (by omega)]

theorem fillCol_zero : tabO r c f = tabO r c (fillCol f h 0 0) :=
  tabO_congr fun a _ b _ => by simp [fillCol]
theorem fillCol_next {j : Nat} :
    tabO r c (fillCol f h (j + 1) 0) = tabO r c (fillCol f h j r) :=
  tabO_congr fun a ha b _ => by
    simp only [fillCol]
    by_cases h2 : b < j + 1 ∨ (b = j + 1 ∧ a < 0)
    · rw [if_pos h2, if_pos (by omega)]
    · rw [if_neg h2, if_neg (by omega)]
theorem fillCol_all : tab r c h = tabO r c (fillCol f h c 0) := by
  rw [← tabO_some]
  exact tabO_congr fun a _ b hb => by simp only [fillCol]; rw [if_pos (Or.inl hb)]

theorem wrN_fillRow {j k : Nat} {x : β} (hx : x = h' k) (hj : j < r) (hk : k < c) :
    (tabO r c (fillRow f h h' j k)).wrN j k x = .ok (tabO r c (fillRow f h h' j (k + 1))) := by
  rw [wrN_tabO hj hk, hx]
  congr 1
  apply tabO_congr
  intro a _ b _
  simp only [upd, fillRow]
  by_cases h1 : a = j ∧ b = k
  · obtain ⟨rfl, rfl⟩ := h1; simp
  · rw [if_neg h1]
    by_cases h2 : a < j
    · rw [if_pos h2, if_pos h2]
    · rw [if_neg h2, if_neg h2]
      by_cases h3 : a = j ∧ b < k
      · rw [if_pos h3, if_pos (by omega)]
      · rw [if_neg h3, if_neg (by omega)]

theorem fillRow_start {j : Nat} {h'' : Nat → β} :
    tabO r c (fillRow f h h' j 0) = tabO r c (fillRow f h h'' j 0) :=
  tabO_congr fun a _ b _ => by simp [fillRow]
theorem fillRow_zero : tabO r c f = tabO r c (fillRow f h h' 0 0) :=
  tabO_congr fun a _ b _ => by simp [fillRow]
theorem fillRow_next {j : Nat} (hh : ∀ b < c, h' b = h j b) :
    tabO r c (fillRow f h h' j c) = tabO r c (fillRow f h h' (j + 1) 0) :=
  tabO_congr fun a _ b hb => by
    simp only [fillRow]
    by_cases h2 : a < j
    · rw [if_pos h2, if_pos (by omega)]
    · rw [if_neg h2]
      by_cases h3 : a = j
      · subst h3; rw [if_pos ⟨rfl, hb⟩, if_pos (by omega), hh b hb]
      · rw [if_neg (by omega), if_neg (by omega), if_neg (by omega)]
theorem fillRow_all : tab r c h = tabO r c (fillRow f h h' r 0) := by
  rw [← tabO_some]
  exact tabO_congr fun a ha b _ => by simp only [fillRow]; rw [if_pos ha]
/-- Overwriting the first entry of a completed row. -/
theorem wrN_fillRow_fix {j : Nat} {x : β} {h'' : Nat → β} (hj : j < r) (hc : 0 < c)
    (h0 : x = h'' 0) (hh : ∀ b, 0 < b → b < c → h' b = h'' b) :
    (tabO r c (fillRow f h h' j c)).wrN j 0 x = .ok (tabO r c (fillRow f h h'' j c)) := by
  rw [wrN_tabO hj hc, h0]
  congr 1
  apply tabO_congr
  intro a _ b hb
  simp only [upd, fillRow]
  by_cases h1 : a = j ∧ b = 0
  · obtain ⟨rfl, rfl⟩ := h1; simp [hc]
  · rw [if_neg h1]
    by_cases h2 : a < j
    · rw [if_pos h2, if_pos h2]
    · rw [if_neg h2, if_neg h2]
      by_cases h3 : a = j ∧ b < c
      · rw [if_pos h3, if_pos h3, hh b (by omega) hb]
      · rw [if_neg h3, if_neg h3]

theorem Full.rdN' {a : Mat β} (z : β) (h : a.Full r c) {i j : Nat} (hi : i < r) (hj : j < c) :
    a.rdN i j = .ok (a.val z i j) := by
  conv => lhs; rw [h.eq_tab z]
  exact rdN_tab hi hj

end Mat

end Booz
