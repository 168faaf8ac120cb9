import Verif.Lemmas.ReadBoozmn

/-!
# The file written by `write_boozmn`: looking up its variables
-/

namespace Booz
open Spec
variable {α : Type} [Arith α]

omit [Arith α] in
theorem find_at : ∀ {l : List (NcVar α)} {i : Nat} {v : NcVar α} {n : String},
    (l.map (·.name)).Nodup → l[i]? = some v → v.name = n → l.find? (·.name == n) = some v
  | [], _, _, _, _, h, _ => by simp at h
  | a :: l, 0, v, n, _, h, hn => by
    simp only [List.getElem?_cons_zero, Option.some.injEq] at h
    subst h; subst hn; simp
  | a :: l, i + 1, v, n, hd, h, hn => by
    simp only [List.getElem?_cons_succ] at h
    rw [List.map_cons, List.nodup_cons] at hd
    have hne : a.name ≠ n := by
      intro e
      exact hd.1 (List.mem_map.2 ⟨v, List.mem_of_getElem? h, by rw [hn, e]⟩)
    rw [List.find?_cons_of_neg (by simp [hne])]
    exact find_at hd.2 h hn

/-- The file as a function of its parts. -/
def fileOf (fl asym : Bool) (len K nc ns : Nat) (m : Mem α) : NcFile α :=
  ⟨bzDims K nc ns len, (bzDefs len fl asym).map (·.toVar m)⟩

section
variable {fl asym : Bool} {len K nc ns : Nat} {m : Mem α}

theorem file_names : (fileOf fl asym len K nc ns m).vars.map (·.name) =
    bzNames.take (if asym then 32 else 27) := by
  cases fl <;> cases asym <;> rfl

theorem file_var (i : Nat) {d : VarDef α} {n : String}
    (h : (bzDefs len fl asym)[i]? = some d) (hn : d.name = n) :
    (fileOf fl asym len K nc ns m).var? n = some (d.toVar m) := by
  refine find_at (i := i) (by
    rw [file_names]; exact bzNames_nodup.sublist (List.take_sublist _ _)) ?_ hn
  show ((bzDefs len fl asym).map (·.toVar m))[i]? = _
  rw [List.getElem?_map, h]
  rfl

theorem file_none {n : String} (h : n ∉ bzNames.take 27) :
    (fileOf fl false len K nc ns m).var? n = none := by
  unfold NcFile.var?
  rw [List.find?_eq_none]
  intro v hv
  simp only [beq_iff_eq]
  intro e
  refine h ?_
  have := file_names (fl := fl) (asym := false) (len := len) (K := K) (nc := nc) (ns := ns) (m := m)
  rw [if_neg (by decide)] at this
  rw [← this, ← e]
  exact List.mem_map.2 ⟨v, hv, rfl⟩

/-- Reading a file's integers or numbers. -/
theorem getsI_of {f : NcFile α} {n : String} {v : NcVar α} {d : Vec Int} (h : f.var? n = some v)
    (hd : v.data = .ints d) : GetsI f n d := ⟨v, h, by unfold ncInts; rw [hd]⟩
theorem getsD_of {f : NcFile α} {n : String} {v : NcVar α} {d : Vec α} (h : f.var? n = some v)
    (hd : v.data = .dbls d) : GetsD f n d := ⟨v, h, by unfold ncDbls; rw [hd]⟩

end

/-! ## The layout -/

theorem dimStr_is (len : Nat) : IsStrDim len (dimStr len) := by
  have hr : (toString len).toList = Nat.toDigits 10 len := by
    show (String.ofList (Nat.toDigits 10 len)).toList = _
    rw [String.toList_ofList]
  have hl : (toString len).length = (Nat.toDigits 10 len).length := by
    rw [← hr, String.length_toList]
  have h : (dimStr len).toList = "dim_".toList ++
      List.replicate (5 - (toString len).length) '0' ++ Nat.toDigits 10 len := by
    unfold dimStr
    simp only [String.toList_append, String.toList_ofList, hr]
  have h4 : "dim_".toList.length = 4 := by decide
  refine ⟨5 - (toString len).length, h, ?_, ?_⟩
  · rw [h, List.length_append, List.length_append, List.length_replicate, h4, ← hl]; omega
  · rw [h, List.length_append, List.length_append, List.length_replicate, h4, ← hl]; omega

theorem dim_str (K nc ns len : Nat) (vs : List (NcVar α)) :
    (NcFile.mk (bzDims K nc ns len) vs).dim? (dimStr len) = some len := by
  have a1 : ("radius" == dimStr len) = false := by
    simpa using (dimStr_ne len (c := 'r') (t := "adius".toList) (by decide)).symm
  have a2 : ("mn_mode" == dimStr len) = false := by
    simpa using (dimStr_ne len (c := 'm') (t := "n_mode".toList) (by decide)).symm
  have a3 : ("mn_modes" == dimStr len) = false := by
    simpa using (dimStr_ne len (c := 'm') (t := "n_modes".toList) (by decide)).symm
  have a4 : ("comput_surfs" == dimStr len) = false := by
    simpa using (dimStr_ne len (c := 'c') (t := "omput_surfs".toList) (by decide)).symm
  have a5 : ("pack_rad" == dimStr len) = false := by
    simpa using (dimStr_ne len (c := 'p') (t := "ack_rad".toList) (by decide)).symm
  simp [NcFile.dim?, bzDims, List.find?_cons, a1, a2, a3, a4, a5]

section
variable {version : String} {s : St α} {K nb ns : Nat} {asym : Bool}

theorem bzFile_eq : bzFile version K nb ns asym s =
    fileOf (decide (s.flux.phip.size ≠ 0)) asym (longVersion version).utf8ByteSize K nb ns
      ⟨writtenObj (decide (s.flux.phip.size ≠ 0)) s,
        bzLoc version nb ns (decide (s.flux.phip.size ≠ 0)) asym s⟩ := rfl

theorem holdsMat_of {f : NcFile α} {n : String} {v : NcVar α} {a : Mat α} (ha : HasShape a K nb)
    (hv : f.var? n = some v) (hd : v.dims = ["pack_rad", "mn_modes"]) (hx : v.data = .dbls a.data) :
    HoldsMat f K nb n id a := by
  refine ⟨v, a.data, hv, hd, hx, by rw [ha.2.2, Nat.mul_comm], fun k hk i hi => ?_⟩
  unfold cell
  rw [ha.1, Option.map_id, id]
  have : k * K + i < a.data.size := by
    rw [ha.2.2]
    calc k * K + i < k * K + K := by omega
      _ = (k + 1) * K := by rw [Nat.succ_mul]
      _ ≤ nb * K := Nat.mul_le_mul_right _ hk
      _ = K * nb := Nat.mul_comm _ _
  rw [Array.getElem?_eq_getElem this]
  rfl

theorem holdsMat_neg {f : NcFile α} {n : String} {v : NcVar α} {a : Mat α} (ha : HasShape a K nb)
    (hv : f.var? n = some v) (hd : v.dims = ["pack_rad", "mn_modes"]) (hx : v.data = .dbls a.neg.data) :
    HoldsMat f K nb n (- ·) a := by
  refine ⟨v, a.neg.data, hv, hd, hx, by rw [(neg_shape ha).2.2, Nat.mul_comm], fun k hk i hi => ?_⟩
  unfold cell
  rw [ha.1]
  have : k * K + i < a.data.size := by
    rw [ha.2.2]
    calc k * K + i < k * K + K := by omega
      _ = (k + 1) * K := by rw [Nat.succ_mul]
      _ ≤ nb * K := Nat.mul_le_mul_right _ hk
      _ = K * nb := Nat.mul_comm _ _
  unfold Mat.neg
  dsimp only
  rw [Array.getElem?_map, Array.getElem?_eq_getElem this]
  rfl

theorem holdsShifted_of {f : NcFile α} {n : String} {v : NcVar α} {a : Vec α} (ha : a.Full ns)
    (hv : f.var? n = some v) (hd : v.dims = ["radius"]) (hx : v.data = .dbls (Vec.tab (ns + 1) (shifted a))) :
    HoldsShifted f ns n (ofInt 0) a := by
  refine ⟨v, _, hv, hd, hx, size_tab _ _, ?_, fun j hj => ?_⟩
  · rw [Vec.getElem?_tab, if_pos (by omega)]; rfl
  · rw [Vec.getElem?_tab, if_pos (by omega)]
    obtain ⟨x, hx⟩ := ha.2 j hj
    unfold shifted
    rw [if_neg (by omega), Nat.add_sub_cancel, hx]
    simp [Vec.val, hx]


/-- What the memory of the writer holds, in terms of the object. -/
theorem written_inp (fl : Bool) : (writtenObj fl s).inp = s.inp := by unfold writtenObj; split <;> rfl
theorem written_out (fl : Bool) : (writtenObj fl s).out = s.out := by unfold writtenObj; split <;> rfl
theorem written_grid (fl : Bool) : (writtenObj fl s).grid = s.grid := by
  unfold writtenObj; split <;> rfl

set_option maxHeartbeats 1000000 in
theorem layout_ok (h : HasResults s K nb nb ns asym) :
    Layout (bzFile version K nb ns asym s) version s K nb ns asym := by
  rw [bzFile_eq]
  have hfl0 : s.flux.phip.size = 0 → decide (s.flux.phip.size ≠ 0) = false := by simp
  have hfl1 : s.flux.phip.size ≠ 0 → decide (s.flux.phip.size ≠ 0) = true := by simp
  generalize decide (s.flux.phip.size ≠ 0) = fl at *
  have hin := written_inp (s := s) fl
  have hout := written_out (s := s) fl
  have hmat : ∀ (n : String) (a b : Mat α), HasShape b K nb → a = b → ∀ (i : Nat) (d : VarDef α),
      (bzDefs (longVersion version).utf8ByteSize fl asym)[i]? = some d → d.name = n →
      d.dims = ["pack_rad", "mn_modes"] →
      d.ptr ⟨writtenObj fl s, bzLoc version nb ns fl asym s⟩ = .dbls a.data →
      HoldsMat (fileOf fl asym (longVersion version).utf8ByteSize K nb ns
        ⟨writtenObj fl s, bzLoc version nb ns fl asym s⟩) K nb n id b := by
    intro n a b hb e i v h1 h2 h3 h4
    subst e
    exact holdsMat_of hb (file_var i h1 h2) h3 h4
  constructor
  · rfl
  · rfl
  · rfl
  · rfl
  · rfl
  · exact ⟨_, _, file_var 0 rfl rfl, rfl, dimStr_is _, dim_str _ _ _ _ _, rfl⟩
  · exact ⟨_, file_var 1 rfl rfl, rfl, rfl⟩
  · exact ⟨_, file_var 2 rfl rfl, rfl, rfl⟩
  · rw [← hin]; exact ⟨_, file_var 3 rfl rfl, rfl, rfl⟩
  · rw [← hin]; exact ⟨_, file_var 4 rfl rfl, rfl, rfl⟩
  · rw [← hin]; exact ⟨_, file_var 5 rfl rfl, rfl, rfl⟩
  · rw [← h.mnboz, ← hout]; exact ⟨_, file_var 6 rfl rfl, rfl, rfl⟩
  · rw [← hin]; exact ⟨_, file_var 7 rfl rfl, rfl, rfl⟩
  · refine ⟨_, _, file_var 11 rfl rfl, rfl, rfl, size_tab _ _, fun k hk => ?_⟩
    obtain ⟨x, hx, _⟩ := h.surfs (Nat.le_refl _) k hk
    refine ⟨x, hx, ?_⟩
    show (Vec.tab nb (jlistVal s.inp.compute_surfs))[k]? = _
    rw [Vec.getElem?_tab, if_pos hk]
    simp [jlistVal, Vec.val, hx]
  · rw [← hout]; exact ⟨_, file_var 12 rfl rfl, rfl, rfl⟩
  · rw [← hout]; exact ⟨_, file_var 13 rfl rfl, rfl, rfl⟩
  · exact holdsShifted_of h.iota (file_var 14 rfl rfl) rfl rfl
  · exact holdsShifted_of h.boozer_I (file_var 15 rfl rfl) rfl rfl
  · exact holdsShifted_of h.boozer_G (file_var 16 rfl rfl) rfl rfl
  · cases fl <;> exact hmat _ _ _ h.bmnc_b rfl 22 _ rfl rfl rfl rfl
  · cases fl <;> exact hmat _ _ _ h.rmnc_b rfl 23 _ rfl rfl rfl rfl
  · cases fl <;> exact hmat _ _ _ h.zmns_b rfl 24 _ rfl rfl rfl rfl
  · cases fl <;> exact holdsMat_neg h.numns_b (file_var 25 rfl rfl) rfl rfl
  · cases fl <;> exact hmat _ _ _ h.gmnc_b rfl 26 _ rfl rfl rfl rfl
  · rintro rfl
    obtain ⟨h1, h2, h3, h4, h5⟩ := h.asym_b rfl
    refine ⟨?_, ?_, ?_, ?_, ?_⟩
    · cases fl <;> exact hmat _ _ _ h1 rfl 27 _ rfl rfl rfl rfl
    · cases fl <;> exact hmat _ _ _ h2 rfl 28 _ rfl rfl rfl rfl
    · cases fl <;> exact hmat _ _ _ h3 rfl 29 _ rfl rfl rfl rfl
    · cases fl <;> exact holdsMat_neg h4 (file_var 30 rfl rfl) rfl rfl
    · cases fl <;> exact hmat _ _ _ h5 rfl 31 _ rfl rfl rfl rfl
  · rintro rfl
    refine ⟨?_, ?_, ?_, ?_, ?_⟩ <;> exact file_none (by decide)
  · intro h0
    have := hfl1 h0
    subst this
    exact ⟨⟨_, file_var 19 rfl rfl, rfl, rfl⟩, ⟨_, file_var 20 rfl rfl, rfl, rfl⟩,
      ⟨_, file_var 21 rfl rfl, rfl, rfl⟩, ⟨_, file_var 18 rfl rfl, rfl, rfl⟩⟩
  · intro h0
    have := hfl0 h0
    subst this
    intro n hn
    simp only [List.mem_cons, List.not_mem_nil, or_false] at hn
    rcases hn with rfl | rfl | rfl | rfl
    · exact ⟨_, file_var 19 rfl rfl, rfl, rfl⟩
    · exact ⟨_, file_var 20 rfl rfl, rfl, rfl⟩
    · exact ⟨_, file_var 21 rfl rfl, rfl, rfl⟩
    · exact ⟨_, file_var 18 rfl rfl, rfl, rfl⟩

end

end Booz
