import Verif.Model.ReadWout
import Verif.Model.WriteBoozmn
import Verif.Model.Run

/-!
# The command-line driver (`/repo/src/_booz_xform/driver.cpp:9-105`)

Files are sequences of bytes, represented as characters; the "C" locale is in force.  The standard
library's formatted input (`operator>>`) is modelled as specified in the C++ standard
([istream.formatted], [facet.num.get.virtuals]).
-/

namespace Booz

/-- `std::isspace` in the "C" locale. For the `>>` of `driver.cpp:49,54,61`. -/
def cSpace (c : Char) : Bool :=
  c == ' ' || c == '\t' || c == '\n' || c == '\x0b' || c == '\x0c' || c == '\r'

/-- Decimal digits. For the `>>` of `driver.cpp:49,61`. -/
def isDig (c : Char) : Bool := '0' ≤ c && c ≤ '9'

/-- The value of a digit string. For the `>>` of `driver.cpp:49,61`. -/
def digVal (ds : List Char) : Nat := ds.foldl (fun n c => 10 * n + (c.toNat - 48)) 0

/-- An input stream: the characters not yet extracted, `failbit` and `eofbit` (`driver.cpp:44`). -/
structure IStream where
  rest : List Char
  fail : Bool
  eof : Bool

/-- An optional sign in front of a number: whether it is `-`, and what follows. For the `>>` of `driver.cpp:49,61`. -/
def takeSign : List Char → Bool × List Char
  | '-' :: r => (true, r)
  | '+' :: r => (false, r)
  | r => (false, r)

/-- `file >> val` for an `int` (`driver.cpp:49,61`).  The second component is the value stored, `none`
if the variable is left as it was: that is so when the stream is not good or only white space is left.
Otherwise 0 is stored if there is no number, and the nearest representable value if the number does not
fit; both set `failbit`.  Reading a number up to the end of the file sets `eofbit`. -/
def extractInt (s : IStream) : IStream × Option Int :=
  if s.fail || s.eof then ({ s with fail := true }, none)
  else
    match s.rest.dropWhile cSpace with
    | [] => (⟨[], true, true⟩, none)
    | c :: r =>
      let sg := takeSign (c :: r)
      let ds := sg.2.takeWhile isDig
      let rest := sg.2.dropWhile isDig
      let v : Int := if sg.1 then -(digVal ds : Int) else digVal ds
      if ds.isEmpty then (⟨rest, true, rest.isEmpty⟩, some 0)
      else if v < -2147483648 then (⟨rest, true, rest.isEmpty⟩, some (-2147483648))
      else if 2147483647 < v then (⟨rest, true, rest.isEmpty⟩, some 2147483647)
      else (⟨rest, false, rest.isEmpty⟩, some v)

/-- `file >> extension` for a `std::string` that is empty before (`driver.cpp:53-54`). -/
def extractWord (s : IStream) : IStream × List Char :=
  if s.fail || s.eof then ({ s with fail := true }, [])
  else
    match s.rest.dropWhile cSpace with
    | [] => (⟨[], true, true⟩, [])
    | c :: r =>
      let rest := (c :: r).dropWhile fun c => !cSpace c
      (⟨rest, false, rest.isEmpty⟩, (c :: r).takeWhile fun c => !cSpace c)

theorem dropWhile_length {β : Type} (p : β → Bool) (l : List β) :
    (l.dropWhile p).length ≤ l.length := by
  induction l with
  | nil => simp
  | cons a l ih =>
    rw [List.dropWhile_cons]
    split
    · simp only [List.length_cons]; omega
    · exact Nat.le_refl _

theorem takeSign_length (l : List Char) : (takeSign l).2.length ≤ l.length := by
  unfold takeSign
  split <;> simp

/-- A successful extraction consumes something. -/
theorem extractInt_shrinks (s : IStream) (h : (extractInt s).1.fail = false) :
    (extractInt s).1.rest.length < s.rest.length := by
  unfold extractInt at h ⊢
  split at h
  · simp at h
  rename_i h0
  rw [if_neg h0]
  cases e : s.rest.dropWhile cSpace with
  | nil => simp [e] at h
  | cons c r =>
    rw [e] at h
    simp only at h ⊢
    have h1 : (c :: r).length ≤ s.rest.length := e ▸ dropWhile_length _ _
    have h2 := takeSign_length (c :: r)
    split at h
    · simp at h
    rename_i hd
    rw [if_neg hd]
    have h3 : ((takeSign (c :: r)).2.dropWhile isDig).length < (takeSign (c :: r)).2.length := by
      have := congrArg List.length (List.takeWhile_append_dropWhile (p := isDig) (l := (takeSign (c :: r)).2))
      rw [List.length_append] at this
      have h4 : 0 < ((takeSign (c :: r)).2.takeWhile isDig).length := by
        rw [List.length_pos_iff]
        simpa using hd
      omega
    have h4 := Nat.lt_of_lt_of_le h3 (Nat.le_trans h2 h1)
    generalize (if (takeSign (c :: r)).1 = true then
      -(digVal ((takeSign (c :: r)).2.takeWhile isDig) : Int)
      else (digVal ((takeSign (c :: r)).2.takeWhile isDig) : Int)) = v
    split
    · exact h4
    split
    · exact h4
    · exact h4

/-- The loop reading `compute_surfs`, `driver.cpp:58-68`: extract integers until the first failure.
(A value is stored whenever the extraction succeeds.) -/
def extractSurfs (s : IStream) : List Int :=
  if _hf : (extractInt s).1.fail = true then []
  else (extractInt s).2.toList ++ extractSurfs (extractInt s).1
termination_by s.rest.length
decreasing_by exact extractInt_shrinks s (by simpa using _hf)

/-- The file system and the lines written to the console by the driver itself.
`driver.cpp:40-102`, `_cli.py:64-116`. -/
structure World (α : Type) where
  disk : Disk α
  console : List String

variable {α : Type}

/-- `std::cout << line << std::endl`. `driver.cpp:40,50,55,63,66,102`. -/
def say (line : String) : Prog (World α) Unit := fun w => .ok () { w with console := w.console ++ [line] }

/-- `if (c) std::cout << line << std::endl;`. `driver.cpp:90`. -/
def sayIf (c : Bool) (line : String) : Prog (World α) Unit := if c then say line else pure ()

/-- `if (c) throw std::runtime_error(msg);`. `driver.cpp:46,51,56`. -/
def throwIf {σ : Type} (c : Bool) (msg : String) : Prog σ Unit := if c then Prog.throw msg else pure ()

/-- What an input file asks for. The locals of `driver.cpp:48-59`; what `_cli.py:81` returns. -/
structure Request where
  mboz : Int
  nboz : Int
  ext : List Char
  surfs : List Int
deriving DecidableEq

/-- The numbers of a list, each preceded by a space (`driver.cpp:70,93`). -/
def spaced (l : List Int) : String := l.foldl (fun s x => s ++ " " ++ toString x) ""

/-- The bytes at a path; NetCDF files start with the letters `CDF` (the rest of their bytes is not
represented).  `none` if the file cannot be opened. For `file.open`, `driver.cpp:44-46`, and `open`, `_cli.py:52`. -/
def Content.bytes : Content α → Option (List Char)
  | .absent => none
  | .other b => some b
  | .broken => some "CDF".toList
  | .nc _ => some "CDF".toList

/-- Reading an opened input file, `driver.cpp:48-71`.  `mboz_in` and `nboz_in` are printed before the
stream is tested, so a variable that was not assigned is an indeterminate value there. -/
def readRequest (content : List Char) : Prog (World α) Request := do
  let e1 := extractInt ⟨content, false, false⟩                              -- :49
  let e2 := extractInt e1.1
  let mboz_in ← Prog.lift (need e1.2 "mboz_in")                             -- :50
  let nboz_in ← Prog.lift (need e2.2 "nboz_in")
  say ("Read mboz = " ++ toString mboz_in ++ ", nboz = " ++ toString nboz_in)
  throwIf e2.1.fail "Unable to read mboz and nboz"                          -- :51
  let e3 := extractWord e2.1                                                -- :54
  say ("Read extension = " ++ String.ofList e3.2)                           -- :55
  throwIf e3.1.fail "Unable to read extension"                              -- :56
  let surfs := extractSurfs e3.1                                            -- :58-68
  surfs.forM fun v => say ("Read value " ++ toString v)                     -- :66
  say "Unable to read more."                                                -- :63
  say ("Read compute_surfs =" ++ spaced surfs)                              -- :69-71
  pure ⟨mboz_in, nboz_in, e3.2, surfs⟩

/-- Call a member function of an object; exceptions propagate. `driver.cpp:78`, `_cli.py:98`. -/
def call {β : Type} (p : Prog (St α) β) (s : St α) : Prog (World α) (St α) := fun w =>
  match p s with
  | .ok _ s' => .ok s' w
  | .exc m _ => .exc m w
  | .abort x => .abort x
  | .ub x => .ub x

variable [Arith α]

/-- `booz.run()` (release build). `driver.cpp:97`, `_cli.py:113`. -/
def callRun (s : St α) : Prog (World α) (St α) := do
  let r ← Prog.lift (run false s)
  pure r.1

/-- `booz.write_boozmn(filename)`. `driver.cpp:100`, `_cli.py:114`. -/
def callWrite (env : Env) (version filename : String) (s : St α) : Prog (World α) Unit := fun w =>
  match writeBoozmn env version filename w.disk s with
  | .ok _ v => .ok () { w with disk := v.core.disk }
  | .exc m v => .exc m { w with disk := v.core.disk }
  | .abort x => .abort x
  | .ub x => .ub x

/-- The surfaces the driver prints, `driver.cpp:92-94`. -/
def announce (v : Vec Int) : Prog (World α) Unit := do
  let l ← Prog.lift (v.toList.mapM fun x => need x "compute_surfs")
  say ("About to run transformation with compute_surfs =" ++ spaced l)

/-- Setting up, running and saving, `driver.cpp:77-102`.  `std::sort` of integers is represented by a
merge sort (equal integers are indistinguishable, so every sorting algorithm gives this result). -/
def calculate (env : Env) (version : String) (r : Request) : Prog (World α) Unit := do
  let w ← Prog.get
  let b ← call (readWout w.disk ("wout_" ++ String.ofList r.ext ++ ".nc") false) construct  -- :77-78
  let b := { b with inp := { b.inp with
    mboz := max b.inp.mboz r.mboz                                           -- :80
    nboz := max b.inp.nboz r.nboz                                           -- :81
    compute_surfs := if r.surfs.length > 0                                  -- :85-88
      then ((r.surfs.mergeSort (fun a b => decide (a ≤ b))).map some).toArray
      else b.inp.compute_surfs } }
  sayIf (r.surfs.length == 0)                                               -- :90
    "No compute_surfs specified, so including all half-grid surfaces."
  announce b.inp.compute_surfs                                            -- :92-94
  let b ← callRun b                                                         -- :97
  callWrite env version ("boozmn_" ++ String.ofList r.ext ++ ".nc") b       -- :100
  say "Good bye."                                                           -- :102

/-- The text printed for a wrong number of arguments, `driver.cpp:13-35`. -/
def usageCpp : List String :=
  ["Usage:  xbooz_xform <inputfile>", "",
   "Where <inputfile> is a text file with 2 or 3 lines, formatted as follows:", "",
   "<mboz> <nboz>", "<extension>", "<compute_surfs>", "", "Here, ", "",
   "<mboz> is the maximum poloidal Fourier mode number to include in the Boozer representation.", "",
   "<nboz> is the maximum toroidal Fourier mode number to include in the Boozer representation.", "",
   "<extension> is the VMEC extension from the VMEC input file to process.",
   "For instance, to process the file wout_li383_1.4m.nc, <extension> should be li383_1.4m",
   "Note that the wout file to load must be in the current working directory.", "",
   "<compute_surfs> is a list of integers giving the surfaces of the VMEC input file to",
   "transform. Note that the transformation is only performed on half-grid surfaces.",
   "The first half-grid surface has index 0. The outermost available surface has index NS-2,",
   "where NS is the VMEC input parameter. You can omit <compute_surfs> from the input file,",
   "in which case the transformation will be performed on all half-grid surfaces."]

/-- `file.open(argv[1]); if (!file.is_open()) throw …`, `driver.cpp:44-46`.  Directories and read
errors are not represented. -/
def openText (path : String) : Prog (World α) (List Char) := do
  let w ← Prog.get
  match (w.disk path).bytes with
  | some b => pure b
  | none => Prog.throw ("Unable to open input file " ++ path)

/-- Reading the input file and doing what it says, `driver.cpp:40-104`. -/
def driverMain (env : Env) (version path : String) : Prog (World α) Int := do
  say ("This is xbooz_xform " ++ version)                                   -- :40
  let content ← openText path                                               -- :44-46
  let r ← readRequest content                                               -- :48-73
  calculate env version r                                                   -- :77-102
  pure 0                                                                    -- :104

/-- `driver`, `driver.cpp:9-105`, called from `main` (`xbooz_xform.cpp:3-5`); `args` is `argv`
including the program name. -/
def driver (env : Env) (version : String) (args : List String) : Prog (World α) Int :=
  match args with
  | [_, path] => driverMain env version path
  | _ => do
    usageCpp.forM say                                                       -- :13-35
    pure 0                                                                  -- :37

end Booz
