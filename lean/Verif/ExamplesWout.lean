import Verif.ExamplesLoad
import Verif.Lemmas.ReadWout

/-!
# A concrete `wout` file
-/

namespace Booz.Ex
open Spec
variable {α : Type} [Arith α]

/-- A scalar integer variable. -/
def iv (n : String) (x : Int) : NcVar α := { name := n, dims := [], data := .ints #[some x] }
/-- An integer variable with one dimension. -/
def ivs (n d : String) (x : List Int) : NcVar α := { name := n, dims := [d], data := .ints (vec x) }
/-- A profile. -/
def dv (n : String) (x : Vec α) : NcVar α := { name := n, dims := ["radius"], data := .dbls x }
/-- A matrix. -/
def dm (n d : String) (x : Mat α) : NcVar α := { name := n, dims := ["radius", d], data := .dbls x.data }

/-- A `wout` file holding the data of `Ex.vmec`. -/
def wout (lasym : Int) : NcFile α where
  dims := [("radius", 4), ("mn_mode", 3), ("mn_mode_nyq", 4)]
  vars := [iv "lasym__logical__" lasym, iv "ns" 4, iv "nfp" 2, iv "mpol" 2, iv "ntor" 1,
    iv "mnmax" 3, iv "mnmax_nyq" 4,
    { name := "aspect", dims := [], data := .dbls #[some (ofInt 5)] },
    dv "chi" vmec.chi, dv "phipf" vmec.phip, dv "pres" vmec.pres, dv "phi" vmec.phi,
    dv "iotas" vmec.iotas,
    ivs "xm" "mn_mode" [0, 0, 1], ivs "xn" "mn_mode" [0, 2, 2],
    ivs "xm_nyq" "mn_mode_nyq" [0, 0, 1, 2], ivs "xn_nyq" "mn_mode_nyq" [0, 2, 0, 2],
    dm "rmnc" "mn_mode" vmec.rmnc, dm "zmns" "mn_mode" vmec.zmns, dm "lmns" "mn_mode" vmec.lmns,
    dm "bmnc" "mn_mode_nyq" vmec.bmnc, dm "bsubumnc" "mn_mode_nyq" vmec.bsubumnc,
    dm "bsubvmnc" "mn_mode_nyq" vmec.bsubvmnc,
    dm "rmns" "mn_mode" vmec.rmns, dm "zmnc" "mn_mode" vmec.zmnc, dm "lmnc" "mn_mode" vmec.lmnc,
    dm "bmns" "mn_mode_nyq" vmec.bmns, dm "bsubumns" "mn_mode_nyq" vmec.bsubumns,
    dm "bsubvmns" "mn_mode_nyq" vmec.bsubvmns]

/-- Its scalars. -/
def woutZ (lasym : Int) : WoutSizes :=
  { lasym := lasym, ns := 4, nfp := 2, mpol := 2, ntor := 1, mnmax := 3, mnmax_nyq := 4 }

/-- A disk with this file. -/
def woutDisk (lasym : Int) : Disk α := fun p => if p = "wout.nc" then .nc (wout lasym) else .absent

/-- The names in this file. -/
def woutNames : List String :=
  ["lasym__logical__", "ns", "nfp", "mpol", "ntor", "mnmax", "mnmax_nyq", "aspect", "chi", "phipf", "pres", "phi", "iotas", "xm", "xn", "xm_nyq", "xn_nyq", "rmnc", "zmns", "lmns", "bmnc", "bsubumnc", "bsubvmnc", "rmns", "zmnc", "lmnc", "bmns", "bsubumns", "bsubvmns"]

theorem wout_names (lasym : Int) : (wout (α := α) lasym).vars.map (·.name) = woutNames := (rfl)
theorem woutNames_nodup : woutNames.Nodup := by decide

omit [Arith α] in
theorem find_nodup : ∀ {l : List (NcVar α)} {i : Nat} {v : NcVar α} {n : String},
    (l.map (·.name)).Nodup → l[i]? = some v → v.name = n → l.find? (·.name == n) = some v
  | [], _, _, _, _, h, _ => by simp at h
  | a :: l, 0, v, n, _, h, hn => by
    simp only [List.getElem?_cons_zero, Option.some.injEq] at h
    subst h; subst hn; simp
  | a :: l, i + 1, v, n, hd, h, hn => by
    simp only [List.getElem?_cons_succ] at h
    rw [List.map_cons, List.nodup_cons] at hd
    have hne : a.name ≠ n := by
      intro e
      exact hd.1 (List.mem_map.2 ⟨v, List.mem_of_getElem? h, by rw [hn, e]⟩)
    rw [List.find?_cons_of_neg (by simp [hne])]
    exact find_nodup hd.2 h hn

theorem wvar (lasym : Int) (i : Nat) {v : NcVar α} {n : String}
    (h : (wout (α := α) lasym).vars[i]? = some v) (hn : v.name = n) :
    (wout (α := α) lasym).var? n = some v :=
  find_nodup (by rw [wout_names]; exact woutNames_nodup) h hn

theorem scalar {f : NcFile α} {n : String} {x : Int} (h : f.var? n = some (iv n x)) :
    ScalarIs f n x := by
  intro v hv
  rw [h] at hv; cases hv; rfl

theorem ints {f : NcFile α} {n d : String} {l : List Int} {k : Int} (h : f.var? n = some (ivs n d l))
    (hk : k.toNat = l.length) (hl : ∀ x ∈ l, FitsInt x) : HasInts f n k := by
  intro v hv
  rw [h] at hv; cases hv
  refine ⟨vec l, rfl, ?_, ?_⟩
  · have := vec_full (v := vec l) l rfl
    rw [hk]
    rwa [show (vec l).size = l.length by simp [vec]] at this
  · intro i hi
    rw [hk] at hi
    have e : (vec l).val 0 i = l[i] := by simp [Vec.val, vec, hi]
    rw [e]; exact hl _ (List.getElem_mem hi)

theorem dbls {f : NcFile α} {n : String} {v : NcVar α} {a : Vec α} {k : Int} (h : f.var? n = some v)
    (hv : v.data = .dbls a) (hk : a.Full k.toNat) : HasDbls f n k := by
  intro w hw
  rw [h] at hw; cases hw
  exact ⟨a, by unfold ncDbls; rw [hv], hk⟩

theorem mats {f : NcFile α} {n d : String} {x : Mat α} {r c : Nat} {k : Int}
    (h : f.var? n = some (dm n d x)) (hx : x.Full r c) (hk : k.toNat = r * c) : HasDbls f n k := by
  refine dbls h rfl ?_
  rw [hk]; exact ⟨hx.2.2.1, hx.2.2.2⟩

theorem vmec_full : ∀ a ∈ [(vmec (α := α)).rmnc, vmec.zmns, vmec.lmns, vmec.rmns, vmec.zmnc, vmec.lmnc],
    a.Full 3 4 := by
  unfold vmec
  simp only [List.mem_cons, List.not_mem_nil, or_false]
  rintro a (h | h | h | h | h | h) <;> subst h <;> exact Mat.full_tab 3 4 _

theorem vmec_full_nyq : ∀ a ∈ [(vmec (α := α)).bmnc, vmec.bsubumnc, vmec.bsubvmnc, vmec.bmns,
    vmec.bsubumns, vmec.bsubvmns], a.Full 4 4 := by
  unfold vmec
  simp only [List.mem_cons, List.not_mem_nil, or_false]
  rintro a (h | h | h | h | h | h) <;> subst h <;> exact Mat.full_tab 4 4 _

theorem shapes (lasym : Int) : WoutShapes (wout (α := α) lasym) (woutZ lasym) where
  lasym := scalar (wvar lasym 0 rfl rfl)
  ns := scalar (wvar lasym 1 rfl rfl)
  nfp := scalar (wvar lasym 2 rfl rfl)
  mpol := scalar (wvar lasym 3 rfl rfl)
  ntor := scalar (wvar lasym 4 rfl rfl)
  mnmax := scalar (wvar lasym 5 rfl rfl)
  mnmax_nyq := scalar (wvar lasym 6 rfl rfl)
  aspect := dbls (wvar lasym 7 rfl rfl) rfl ⟨rfl, fun i hi => by
    have : i = 0 := by have : i < 1 := hi; omega
    subst this; exact ⟨_, rfl⟩⟩
  chi := dbls (wvar lasym 8 rfl rfl) rfl (Vec.full_tab 4 _)
  phipf := dbls (wvar lasym 9 rfl rfl) rfl (Vec.full_tab 4 _)
  pres := dbls (wvar lasym 10 rfl rfl) rfl (Vec.full_tab 4 _)
  phi := dbls (wvar lasym 11 rfl rfl) rfl (Vec.full_tab 4 _)
  iotas := dbls (wvar lasym 12 rfl rfl) rfl (Vec.full_tab 4 _)
  xm := ints (l := [0, 0, 1]) (wvar lasym 13 rfl rfl) rfl (by decide)
  xn := ints (l := [0, 2, 2]) (wvar lasym 14 rfl rfl) rfl (by decide)
  xm_nyq := ints (l := [0, 0, 1, 2]) (wvar lasym 15 rfl rfl) rfl (by decide)
  xn_nyq := ints (l := [0, 2, 0, 2]) (wvar lasym 16 rfl rfl) rfl (by decide)
  mats := by
    intro n hn
    simp only [List.mem_cons, List.not_mem_nil, or_false] at hn
    rcases hn with h | h | h | h | h | h <;> subst h
    · exact mats (x := vmec.rmnc) (d := "mn_mode") (wvar lasym 17 rfl rfl) (vmec_full _ (by simp)) rfl
    · exact mats (x := vmec.zmns) (d := "mn_mode") (wvar lasym 18 rfl rfl) (vmec_full _ (by simp)) rfl
    · exact mats (x := vmec.lmns) (d := "mn_mode") (wvar lasym 19 rfl rfl) (vmec_full _ (by simp)) rfl
    · exact mats (x := vmec.rmns) (d := "mn_mode") (wvar lasym 23 rfl rfl) (vmec_full _ (by simp)) rfl
    · exact mats (x := vmec.zmnc) (d := "mn_mode") (wvar lasym 24 rfl rfl) (vmec_full _ (by simp)) rfl
    · exact mats (x := vmec.lmnc) (d := "mn_mode") (wvar lasym 25 rfl rfl) (vmec_full _ (by simp)) rfl
  mats_nyq := by
    intro n hn
    simp only [List.mem_cons, List.not_mem_nil, or_false] at hn
    rcases hn with h | h | h | h | h | h <;> subst h
    · exact mats (x := vmec.bmnc) (d := "mn_mode_nyq") (wvar lasym 20 rfl rfl) (vmec_full_nyq _ (by simp)) rfl
    · exact mats (x := vmec.bsubumnc) (d := "mn_mode_nyq") (wvar lasym 21 rfl rfl) (vmec_full_nyq _ (by simp)) rfl
    · exact mats (x := vmec.bsubvmnc) (d := "mn_mode_nyq") (wvar lasym 22 rfl rfl) (vmec_full_nyq _ (by simp)) rfl
    · exact mats (x := vmec.bmns) (d := "mn_mode_nyq") (wvar lasym 26 rfl rfl) (vmec_full_nyq _ (by simp)) rfl
    · exact mats (x := vmec.bsubumns) (d := "mn_mode_nyq") (wvar lasym 27 rfl rfl) (vmec_full_nyq _ (by simp)) rfl
    · exact mats (x := vmec.bsubvmns) (d := "mn_mode_nyq") (wvar lasym 28 rfl rfl) (vmec_full_nyq _ (by simp)) rfl
  ns_pos := by show (1 : Int) ≤ 4; decide
  nfp_pos := by show (1 : Int) ≤ 2; decide
  mnmax_pos := by show (1 : Int) ≤ 3 ∧ FitsInt 3; decide
  mnmax_nyq_pos := by show (1 : Int) ≤ 4 ∧ FitsInt 4; decide

theorem wout_all (lasym : Int) : ∀ n ∈ woutRequired true true, (wout (α := α) lasym).var? n ≠ none := by
  have : ∀ n ∈ woutRequired true true, n ∈ (wout (α := α) lasym).vars.map (·.name) := by
    rw [wout_names]; decide
  intro n hn h
  have := this n hn
  rw [NcFile.var?, List.find?_eq_none] at h
  obtain ⟨v, hv, e⟩ := List.mem_map.1 this
  exact h v hv (by simp [e])

theorem wout_present (lasym : Int) (flux asym : Bool) :
    ∀ n ∈ woutRequired flux asym, (wout (α := α) lasym).var? n ≠ none := by
  intro n hn
  refine wout_all lasym n ?_
  revert hn
  unfold woutRequired
  simp only [List.mem_append, if_true]
  rintro ((h | h) | h)
  · exact .inl (.inl h)
  · cases flux
    · exact absurd h List.not_mem_nil
    · exact .inl (.inr h)
  · cases asym
    · exact absurd h List.not_mem_nil
    · exact .inr h

theorem wout_dbls (lasym : Int) (i : Nat) {v : NcVar α} {n : String} {a : Vec α}
    (h : (wout (α := α) lasym).vars[i]? = some v) (hn : v.name = n) (hd : v.data = .dbls a) :
    dblsOf (wout lasym) n = a :=
  dblsOf_eq (wvar lasym i h hn) (by unfold ncDbls; rw [hd])

theorem wout_ints (lasym : Int) (i : Nat) {v : NcVar α} {n : String} {a : Vec Int}
    (h : (wout (α := α) lasym).vars[i]? = some v) (hn : v.name = n) (hd : v.data = .ints a) :
    intsOf (wout (α := α) lasym) n = a :=
  intsOf_eq (wvar lasym i h hn) (by unfold ncInts; rw [hd])

/-- What `init_from_vmec` is given when the symmetric example file is read. -/
def symArgs : VmecArgs α :=
  { (vmec : VmecArgs α) with
    rmns := .empty, zmnc := .empty, lmnc := .empty, bmns := .empty, bsubumns := .empty
    bsubvmns := .empty }

theorem wout_args : woutArgs (wout (α := α) 0) (woutZ 0) true = symArgs := by
  have m : ∀ (r : Int) (n : String) (a : Mat α), dblsOf (wout (α := α) 0) n = a.data → a.rows = r.toNat →
      a.cols = 4 → woutMat (wout (α := α) 0) r (woutZ 0).ns n = a := by
    intro r n a h1 h2 h3
    unfold woutMat
    rw [h1, ← h2]
    show (⟨a.rows, 4, a.data⟩ : Mat α) = a
    rw [← h3]
  unfold woutArgs symArgs
  rw [VmecArgs.mk.injEq]
  refine ⟨?_, ?_, rfl, rfl, ?_, rfl, ?_, ?_, rfl, ?_, rfl, ?_, rfl, ?_, ?_, ?_, ?_⟩
  · exact wout_dbls 0 12 rfl rfl rfl
  · exact m _ _ vmec.rmnc (wout_dbls 0 17 rfl rfl rfl) rfl rfl
  · exact m _ _ vmec.zmns (wout_dbls 0 18 rfl rfl rfl) rfl rfl
  · exact m _ _ vmec.lmns (wout_dbls 0 19 rfl rfl rfl) rfl rfl
  · exact m _ _ vmec.bmnc (wout_dbls 0 20 rfl rfl rfl) rfl rfl
  · exact m _ _ vmec.bsubumnc (wout_dbls 0 21 rfl rfl rfl) rfl rfl
  · exact m _ _ vmec.bsubvmnc (wout_dbls 0 22 rfl rfl rfl) rfl rfl
  · exact wout_dbls 0 9 rfl rfl rfl
  · exact wout_dbls 0 8 rfl rfl rfl
  · exact wout_dbls 0 10 rfl rfl rfl
  · exact wout_dbls 0 11 rfl rfl rfl

/-- The members when `init_from_vmec` is called. -/
def symInp (I : Inputs α) : Inputs α :=
  { I with
    asym := some false, nfp := some 2, mpol := some 2, ntor := some 1, mnmax := some 3
    mnmax_nyq := some 4, aspect := some (ofInt 5)
    xm := vec [0, 0, 1], xn := vec [0, 2, 2], xm_nyq := vec [0, 0, 1, 2], xn_nyq := vec [0, 2, 0, 2]
    mpol_nyq := some 2, ntor_nyq := some 1 }

theorem wout_inp (I : Inputs α) : woutInp (wout (α := α) 0) (woutZ 0) I = symInp I := by
  have h1 : intsOf (wout (α := α) 0) "xm_nyq" = vec [0, 0, 1, 2] := wout_ints 0 15 rfl rfl rfl
  have h2 : intsOf (wout (α := α) 0) "xn_nyq" = vec [0, 2, 0, 2] := wout_ints 0 16 rfl rfl rfl
  have h3 : intsOf (wout (α := α) 0) "xm" = vec [0, 0, 1] := wout_ints 0 13 rfl rfl rfl
  have h4 : intsOf (wout (α := α) 0) "xn" = vec [0, 2, 2] := wout_ints 0 14 rfl rfl rfl
  have h5 : dblsOf (wout (α := α) 0) "aspect" = #[some (ofInt 5)] := wout_dbls 0 7 rfl rfl rfl
  unfold woutInp symInp
  rw [h1, h2, h3, h4, h5]
  rfl

theorem sym_consistent {I : Inputs α} (h : ∀ j, j < I.compute_surfs.size →
    0 ≤ I.compute_surfs.val 0 j ∧ I.compute_surfs.val 0 j < 4 - 1) :
    Consistent 4 (symArgs (α := α)) (symInp I) (sizes false) := by
  have C := consistent (α := α) false
  exact ⟨C.1, C.2, C.3, C.4, C.5, C.6, C.7, C.8, C.9, C.10, C.11, C.12, (fun h => by cases h), h⟩

theorem sym_given {I : Inputs α} (h : I.compute_surfs.Full I.compute_surfs.size) :
    Given (symArgs (α := α)) (symInp I) (sizes false) := by
  have G := given (α := α) false
  have A := G.args
  have he : (Mat.empty : Mat α).Full (Mat.empty : Mat α).rows (Mat.empty : Mat α).cols :=
    ⟨rfl, rfl, rfl, fun i hi => absurd hi (by simp [Mat.empty])⟩
  exact ⟨⟨rfl, rfl, rfl, rfl, rfl, rfl, rfl⟩,
    ⟨G.lists.xm, G.lists.xn, G.lists.xm_nyq, G.lists.xn_nyq, h⟩,
    { A with rmns := he, zmnc := he, lmnc := he, bmns := he, bsubumns := he, bsubvmns := he }⟩

theorem sym_loadable {I : Inputs α} (h : I.verbose ≤ 1) :
    Loadable 4 (symArgs (α := α)) (symInp I) (sizes false) :=
  ⟨fun _ _ _ => by decide, .inl h, (loadable (α := α) false).fit_m, (loadable (α := α) false).fit_n,
    (loadable (α := α) false).fit_n1⟩

end Booz.Ex
