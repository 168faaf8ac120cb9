import Verif.Model.Cli

/-!
# Assigning the input attributes (`/repo/src/_booz_xform/bindings.cpp:108-290`)

Every input member is exposed with `def_readwrite`, so that a Python program can fill an object
without loading a file.  pybind11 converts the value and copies it into the member; nothing else
happens.
-/

namespace Booz
variable {α : Type} [Arith α]

/-- An assignment `b.name = value`, `bindings.cpp:108-290`.  An integer vector is given by its
elements.  Simplified: values of another kind (a string, an array with another number of axes) are
not considered; pybind11 rejects or converts them. -/
inductive Setting (α : Type)
  | verbose (x : Int) | asym (x : Bool) | nfp (x : Int) | mpol (x : Int) | ntor (x : Int)
  | mnmax (x : Int) | mpol_nyq (x : Int) | ntor_nyq (x : Int) | mnmax_nyq (x : Int)
  | xm (l : List Int) | xn (l : List Int) | xm_nyq (l : List Int) | xn_nyq (l : List Int)
  | ns_in (x : Int) | s_in (v : Vec α) | iota (v : Vec α)
  | phi (v : Vec α) | chi (v : Vec α) | phip (v : Vec α) | pres (v : Vec α)
  | rmnc (a : Mat α) | rmns (a : Mat α) | zmnc (a : Mat α) | zmns (a : Mat α)
  | lmnc (a : Mat α) | lmns (a : Mat α) | bmnc (a : Mat α) | bmns (a : Mat α)
  | bsubumnc (a : Mat α) | bsubumns (a : Mat α) | bsubvmnc (a : Mat α) | bsubvmns (a : Mat α)
  | mboz (x : Int) | nboz (x : Int) | compute_surfs (l : List Int)
  | aspect (x : α) | toroidal_flux (x : α)

/-- Store a converted value. `def_readwrite`, `bindings.cpp:108-290`. -/
def storeInp {β : Type} (r : Res β) (g : β → Inputs α → Inputs α) : Prog (St α) Unit := do
  let x ← Prog.lift r
  let b ← Prog.get
  Prog.set { b with inp := g x b.inp }

/-- Store a flux profile. `def_readwrite`, `bindings.cpp:182-194`. -/
def storeFlux (g : Flux α → Flux α) : Prog (St α) Unit := do
  let b ← Prog.get
  Prog.set { b with flux := g b.flux }

/-- Carry out an assignment, `bindings.cpp:108-290`.  A Python integer that does not fit in an `int`
raises an exception. -/
def Setting.assign : Setting α → Prog (St α) Unit
  | .verbose x => storeInp (pyToInt x) fun x I => { I with verbose := x }              -- :108
  | .asym x => storeInp (pure x) fun x I => { I with asym := some x }                  -- :112
  | .nfp x => storeInp (pyToInt x) fun x I => { I with nfp := some x }                 -- :117
  | .mpol x => storeInp (pyToInt x) fun x I => { I with mpol := some x }               -- :121
  | .ntor x => storeInp (pyToInt x) fun x I => { I with ntor := some x }               -- :125
  | .mnmax x => storeInp (pyToInt x) fun x I => { I with mnmax := some x }             -- :129
  | .mpol_nyq x => storeInp (pyToInt x) fun x I => { I with mpol_nyq := some x }       -- :133
  | .ntor_nyq x => storeInp (pyToInt x) fun x I => { I with ntor_nyq := some x }       -- :137
  | .mnmax_nyq x => storeInp (pyToInt x) fun x I => { I with mnmax_nyq := some x }     -- :141
  | .xm l => storeInp (pyToIntVec l) fun v I => { I with xm := v }                     -- :145
  | .xn l => storeInp (pyToIntVec l) fun v I => { I with xn := v }                     -- :149
  | .xm_nyq l => storeInp (pyToIntVec l) fun v I => { I with xm_nyq := v }             -- :154
  | .xn_nyq l => storeInp (pyToIntVec l) fun v I => { I with xn_nyq := v }             -- :159
  | .ns_in x => storeInp (pyToInt x) fun x I => { I with ns_in := some x }             -- :165
  | .s_in v => storeInp (pure v) fun v I => { I with s_in := v }                       -- :171
  | .iota v => storeInp (pure v) fun v I => { I with iota := v }                       -- :178
  | .phi v => storeFlux fun f => { f with phi := v }                                   -- :182
  | .chi v => storeFlux fun f => { f with chi := v }                                   -- :186
  | .phip v => storeFlux fun f => { f with phip := v }                                 -- :190
  | .pres v => storeFlux fun f => { f with pres := v }                                 -- :194
  | .rmnc a => storeInp (pure a) fun a I => { I with rmnc := a }                       -- :197
  | .rmns a => storeInp (pure a) fun a I => { I with rmns := a }
  | .zmnc a => storeInp (pure a) fun a I => { I with zmnc := a }
  | .zmns a => storeInp (pure a) fun a I => { I with zmns := a }
  | .lmnc a => storeInp (pure a) fun a I => { I with lmnc := a }
  | .lmns a => storeInp (pure a) fun a I => { I with lmns := a }
  | .bmnc a => storeInp (pure a) fun a I => { I with bmnc := a }
  | .bmns a => storeInp (pure a) fun a I => { I with bmns := a }
  | .bsubumnc a => storeInp (pure a) fun a I => { I with bsubumnc := a }
  | .bsubumns a => storeInp (pure a) fun a I => { I with bsubumns := a }
  | .bsubvmnc a => storeInp (pure a) fun a I => { I with bsubvmnc := a }
  | .bsubvmns a => storeInp (pure a) fun a I => { I with bsubvmns := a }               -- :257
  | .mboz x => storeInp (pyToInt x) fun x I => { I with mboz := x }                    -- :263
  | .nboz x => storeInp (pyToInt x) fun x I => { I with nboz := x }                    -- :267
  | .compute_surfs l => storeInp (pyToIntVec l) fun v I => { I with compute_surfs := v }  -- :273
  | .aspect x => storeInp (pure x) fun x I => { I with aspect := some x }              -- :280
  | .toroidal_flux x => storeInp (pure x) fun x I => { I with toroidal_flux := some x }  -- :286

/-- Carry out assignments one after the other. A Python program using `bindings.cpp:108-290`. -/
def setAll : List (Setting α) → Prog (St α) Unit
  | [] => pure ()
  | x :: l => do
    x.assign
    setAll l

end Booz
