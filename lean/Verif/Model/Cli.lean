import Verif.Model.Driver

/-!
# The Python command-line driver (`/repo/src/booz_xform/_cli.py:20-121`)

Input files are ASCII text; other characters are treated as letters (in particular a decoding error
is not represented).  Python exceptions are represented like C++ exceptions.
-/

namespace Booz

/-- `str.isspace` for ASCII characters: the "C" white space and the separators 0x1c–0x1f.
For `f.read().split()`, `_cli.py:53`, and `int(...)`, `_cli.py:61,74`. -/
def pySpace (c : Char) : Bool :=
  cSpace c || c == '\x1c' || c == '\x1d' || c == '\x1e' || c == '\x1f'

/-- `str.split()` (`_cli.py:53`); `cur` is the current word, reversed. -/
def pySplitAux : List Char → List Char → List (List Char)
  | cur, [] => if cur.isEmpty then [] else [cur.reverse]
  | cur, c :: r =>
    if pySpace c then
      if cur.isEmpty then pySplitAux [] r else cur.reverse :: pySplitAux [] r
    else pySplitAux (c :: cur) r

/-- `str.split()` (`_cli.py:53`). -/
def pySplit (l : List Char) : List (List Char) := pySplitAux [] l

/-- The digits of a Python integer literal: single underscores are allowed between digits.
For `int(...)`, `_cli.py:61,74`. -/
def pyDigits : List Char → Option (List Char)
  | [] => none
  | [c] => if isDig c then some [c] else none
  | c :: '_' :: r => if isDig c then (pyDigits r).map (c :: ·) else none
  | c :: d :: r => if isDig c then (pyDigits (d :: r)).map (c :: ·) else none

/-- `int(token)` (`_cli.py:61,74`); `none` is a `ValueError`.  Numbers of more than 4300 digits are
rejected (`sys.get_int_max_str_digits`). -/
def pyInt (tok : List Char) : Option Int :=
  let sg := takeSign tok
  match pyDigits sg.2 with
  | none => none
  | some ds =>
    if 4300 < ds.length then none
    else some (if sg.1 then -(digVal ds : Int) else digVal ds)

variable {α : Type}

/-- The loop reading `compute_surfs`, `_cli.py:71-79`. -/
def pySurfs : List (List Char) → Prog (World α) (List Int)
  | [] => pure []
  | t :: ts =>
    match pyInt t with
    | none => do
      say "Unable to read more."
      pure []
    | some v => do
      say ("Read value " ++ toString v)
      let l ← pySurfs ts
      pure (v :: l)

/-- `_parse_input_file`, `_cli.py:45-81`, on an opened file. -/
def pyRequest (path : String) (content : List Char) : Prog (World α) Request :=
  match pySplit content with
  | t0 :: t1 :: t2 :: ts =>
    match pyInt t0, pyInt t1 with                                           -- :60-63
    | some mboz, some nboz => do
      say ("Read mboz = " ++ toString mboz ++ ", nboz = " ++ toString nboz) -- :64
      say ("Read extension = " ++ String.ofList t2)                         -- :66-67
      let surfs ← pySurfs ts                                                -- :71-79
      pure ⟨mboz, nboz, t2, surfs⟩                                          -- :81
    | _, _ => Prog.throw "Unable to read mboz and nboz"
  | _ => Prog.throw ("Unable to read mboz, nboz, and extension from " ++ path) -- :55-58

/-- `open(filename)`, `_cli.py:52`. -/
def pyOpen (path : String) : Prog (World α) (List Char) := do
  let w ← Prog.get
  match (w.disk path).bytes with
  | some b => pure b
  | none => Prog.throw ("[Errno 2] No such file or directory: '" ++ path ++ "'")

/-- Assigning a Python integer to an `int` member (`bindings.cpp:263-272`): `TypeError` if it does
not fit. -/
def pyToInt (x : Int) : Res Int :=
  if -2147483648 ≤ x ∧ x < 2147483648 then .ok x else thrown "TypeError: incompatible function arguments"

/-- Assigning a list of Python integers to an Eigen vector of `int` (`bindings.cpp:273`).  pybind11
makes a NumPy array of it, with 64-bit elements, and copies it with NumPy's unsafe casting rule: the
elements are reduced modulo 2^32.  Simplified: an element that does not fit in 64 bits is rejected
(NumPy would choose other element types). -/
def pyToIntVec (l : List Int) : Res (Vec Int) :=
  if ∀ x ∈ l, -9223372036854775808 ≤ x ∧ x < 9223372036854775808 then
    .ok ((l.map fun x => some (x.bmod 4294967296)).toArray)
  else thrown "TypeError: incompatible function arguments"

/-- `" ".join(str(s) for s in v)`, `_cli.py:111`. -/
def joined (l : List Int) : String := " ".intercalate (l.map fun x => toString x)

variable [Arith α]

/-- Assigning `compute_surfs` if surfaces are listed, `_cli.py:105-108`. -/
def pyAssign (r : Request) (b : St α) : Prog (World α) (St α) :=
  if r.surfs.isEmpty then do
    say "No compute_surfs specified, so including all half-grid surfaces."
    pure b
  else do
    let v ← Prog.lift (pyToIntVec (r.surfs.mergeSort fun a b => decide (a ≤ b)))
    pure { b with inp := { b.inp with compute_surfs := v } }

/-- Setting up, running and saving, `_cli.py:97-116`. -/
def pyCalculate (env : Env) (version : String) (r : Request) : Prog (World α) Unit := do
  let w ← Prog.get
  let b ← call (readWout w.disk ("wout_" ++ String.ofList r.ext ++ ".nc") false) construct  -- :97-98
  let m ← Prog.lift (pyToInt (max b.inp.mboz r.mboz))                       -- :100
  let n ← Prog.lift (pyToInt (max b.inp.nboz r.nboz))                       -- :101
  let b ← pyAssign r { b with inp := { b.inp with mboz := m, nboz := n } }  -- :105-108
  let l ← Prog.lift (b.inp.compute_surfs.toList.mapM fun x => need x "compute_surfs")
  say ("About to run transformation with compute_surfs = " ++ joined l)     -- :110-111
  let b ← callRun b                                                         -- :113
  callWrite env version ("boozmn_" ++ String.ofList r.ext ++ ".nc") b       -- :114
  say "Good bye."                                                           -- :116

/-- `USAGE`, `_cli.py:20-42`. -/
def usagePy : List String :=
  ["Usage:  xbooz_xform <inputfile>", "",
   "Where <inputfile> is a text file with 2 or 3 lines, formatted as follows:", "",
   "<mboz> <nboz>", "<extension>", "<compute_surfs>", "", "Here,", "",
   "<mboz> is the maximum poloidal Fourier mode number to include in the Boozer representation.", "",
   "<nboz> is the maximum toroidal Fourier mode number to include in the Boozer representation.", "",
   "<extension> is the VMEC extension from the VMEC input file to process.",
   "For instance, to process the file wout_li383_1.4m.nc, <extension> should be li383_1.4m",
   "Note that the wout file to load must be in the current working directory.", "",
   "<compute_surfs> is a list of integers giving the surfaces of the VMEC input file to",
   "transform. Note that the transformation is only performed on half-grid surfaces.",
   "The first half-grid surface has index 0. The outermost available surface has index NS-2,",
   "where NS is the VMEC input parameter. You can omit <compute_surfs> from the input file,",
   "in which case the transformation will be performed on all half-grid surfaces."]

/-- The body of `main` for one argument, `_cli.py:93-117`.  `pkg` is the version of the Python
package, `version` that compiled into the extension module. -/
def pyMain1 (env : Env) (version pkg path : String) : Prog (World α) Int := do
  say ("This is xbooz_xform " ++ pkg)                                       -- :93
  let content ← pyOpen path                                                 -- :52-53
  let r ← pyRequest path content                                            -- :95
  pyCalculate env version r                                                 -- :97-116
  pure 0

/-- `main`, `_cli.py:84-117`; `args` is `sys.argv[1:]`. -/
def pyMain (env : Env) (version pkg : String) (args : List String) : Prog (World α) Int :=
  match args with
  | [path] => pyMain1 env version pkg path
  | _ => do
    usagePy.forM say                                                        -- :90
    pure 0

end Booz
