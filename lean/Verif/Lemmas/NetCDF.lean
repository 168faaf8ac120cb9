import Verif.Lemmas.Fill
import Verif.Spec.Wout

/-!
# Lemmas about reading NetCDF variables
-/

namespace Booz
open Spec

section
variable {β : Type}

theorem blit_eq {src buf : Vec β} (h : src.size = buf.size) : blit src buf = .ok src := by
  unfold blit
  rw [if_pos (by omega)]
  congr 1
  rw [h]
  simp

theorem blit_one (x y : Option β) : blit #[x] #[y] = .ok #[x] := blit_eq rfl

theorem first_ok {v : Vec β} {n : Nat} (h : v.size = n) (hn : 1 ≤ n) : first v = .ok () := by
  unfold first; rw [if_pos (by omega)]

theorem Vec.resize_size (v : Vec β) {n : Int} (h : 0 ≤ n) :
    ∃ w, v.resize n = .ok w ∧ w.size = n.toNat := by
  unfold Vec.resize
  rw [if_pos h]
  refine ⟨_, rfl, ?_⟩
  split
  · assumption
  · simp

theorem Mat.resize_size (a : Mat β) {r c : Int} (hr : 0 ≤ r) (hc : 0 ≤ c) :
    ∃ d, a.resize r c = .ok ⟨r.toNat, c.toNat, d⟩ ∧ d.size = r.toNat * c.toNat := by
  unfold Mat.resize
  rw [if_pos ⟨hr, hc⟩]
  refine ⟨_, rfl, ?_⟩
  split
  · assumption
  · simp

end

section
variable {α : Type}

theorem find_none {f : NcFile α} {name : String} (h : f.var? name = none) :
    f.find name = thrown "NetCDF: Variable not found" := by
  unfold NcFile.find; rw [h]
theorem find_some {f : NcFile α} {name : String} {v : NcVar α} (h : f.var? name = some v) :
    f.find name = .ok v := by
  unfold NcFile.find; rw [h]

end

variable {α : Type} [Arith α]

theorem asInts_of {v : NcVar α} {a : Vec Int} (h : ncInts v = some a) : v.asInts = .ok a := by
  unfold ncInts at h
  unfold NcVar.asInts
  cases hd : v.data with
  | ints b => rw [hd] at h; cases h; rfl
  | text b => rw [hd] at h; cases h
  | dbls b =>
    rw [hd] at h
    simp only at h ⊢
    split at h
    · rename_i hb
      cases h
      rw [if_pos]
      rw [Array.all_eq_true_iff_forall_mem]
      intro c hc
      cases c with
      | none => rfl
      | some x => exact hb _ hc x rfl
    · cases h

theorem asDbls_of {v : NcVar α} {a : Vec α} (h : ncDbls v = some a) : v.asDbls = .ok a := by
  unfold ncDbls at h
  unfold NcVar.asDbls
  cases hd : v.data with
  | ints b => rw [hd] at h; cases h; rfl
  | text b => rw [hd] at h; cases h
  | dbls b => rw [hd] at h; cases h; rfl

theorem intsOf_eq {f : NcFile α} {name : String} {v : NcVar α} {a : Vec Int}
    (h : f.var? name = some v) (ha : ncInts v = some a) : intsOf f name = a := by
  unfold intsOf; rw [h, Option.bind_some, ha]; rfl
theorem dblsOf_eq {f : NcFile α} {name : String} {v : NcVar α} {a : Vec α}
    (h : f.var? name = some v) (ha : ncDbls v = some a) : dblsOf f name = a := by
  unfold dblsOf; rw [h, Option.bind_some, ha]; rfl

section
variable {f : NcFile α} {name : String} {v : NcVar α}

theorem getInt_none (h : f.var? name = none) (old : Option Int) :
    f.getInt name old = thrown "NetCDF: Variable not found" := by
  unfold NcFile.getInt; rw [find_none h]; rfl
theorem getDbl_none (h : f.var? name = none) (old : Option α) :
    f.getDbl name old = thrown "NetCDF: Variable not found" := by
  unfold NcFile.getDbl; rw [find_none h]; rfl
theorem getVec_none (h : f.var? name = none) (old : Vec α) :
    f.getVec name old = thrown "NetCDF: Variable not found" := by
  unfold NcFile.getVec; rw [find_none h]; rfl
theorem getIVec_none (h : f.var? name = none) (old : Vec Int) :
    f.getIVec name old = thrown "NetCDF: Variable not found" := by
  unfold NcFile.getIVec; rw [find_none h]; rfl
theorem getMat_none (h : f.var? name = none) (old : Mat α) :
    f.getMat name old = thrown "NetCDF: Variable not found" := by
  unfold NcFile.getMat; rw [find_none h]; rfl

theorem getInt_some {x : Int} (h : f.var? name = some v) (hs : ncInts v = some #[some x])
    (old : Option Int) : f.getInt name old = .ok (some x) := by
  unfold NcFile.getInt; rw [find_some h, ok_bind, asInts_of hs, ok_bind, blit_one, ok_bind]; rfl
theorem getDbl_some {x : Option α} (h : f.var? name = some v) (hs : ncDbls v = some #[x])
    (old : Option α) : f.getDbl name old = .ok x := by
  unfold NcFile.getDbl; rw [find_some h, ok_bind, asDbls_of hs, ok_bind, blit_one, ok_bind]; rfl
theorem getVec_some {a old : Vec α} {n : Nat} (h : f.var? name = some v) (hs : ncDbls v = some a)
    (ha : a.size = n) (ho : old.size = n) (hn : 1 ≤ n) : f.getVec name old = .ok a := by
  unfold NcFile.getVec
  rw [find_some h, ok_bind, first_ok ho hn, ok_bind, asDbls_of hs, ok_bind, blit_eq (by omega)]
theorem getIVec_some {a old : Vec Int} {n : Nat} (h : f.var? name = some v) (hs : ncInts v = some a)
    (ha : a.size = n) (ho : old.size = n) (hn : 1 ≤ n) : f.getIVec name old = .ok a := by
  unfold NcFile.getIVec
  rw [find_some h, ok_bind, first_ok ho hn, ok_bind, asInts_of hs, ok_bind, blit_eq (by omega)]
theorem getMat_some {a d : Vec α} {r c : Nat} (h : f.var? name = some v) (hs : ncDbls v = some a)
    (ha : a.size = r * c) (hd : d.size = r * c) (hr : 1 ≤ r) (hc : 1 ≤ c) :
    f.getMat name ⟨r, c, d⟩ = .ok ⟨r, c, a⟩ := by
  unfold NcFile.getMat Mat.first
  have e : a.size = d.size := by omega
  rw [find_some h, ok_bind, if_pos ⟨hr, hc⟩, ok_bind, asDbls_of hs, ok_bind, blit_eq e, ok_bind]
  rfl

end

end Booz
