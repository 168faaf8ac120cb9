/-!
# C++ building blocks: faults, `int`, Eigen arrays, loops

Model of the C++ features the code of `/repo/src/_booz_xform` relies on.  Undefined behaviour is
a distinct outcome (`Fault.ub`), never assumed away.
-/

namespace Booz

/-- How a C++ computation can end other than by returning.
* `throw`: a C++ exception (`throw std::runtime_error(...)`).
* `ub`: undefined behaviour (index outside an Eigen array, use of an indeterminate value, integer
  division by zero, signed overflow, negative array size).
* `assertFail`: a failing `assert(...)`; only in builds without `NDEBUG`
  (`/repo/CMakeLists.txt:8-14`: the default build type is Release, where asserts vanish). -/
inductive Fault where
  | throw (msg : String)
  | ub (why : String)
  | assertFail (what : String)
  deriving DecidableEq, Repr

/-- Result of a computation without mutable object state. For all of `src/_booz_xform`. -/
abbrev Res := Except Fault

/-- Undefined behaviour, wherever `src/_booz_xform` can have it (out-of-range access as in `surface_solve.cpp:143`,
overflow as in `init.cpp:35-40`, indeterminate members of `booz_xform.hpp:35-502`). -/
@[reducible] def ub {β} (why : String) : Res β := .error (.ub why)
/-- `throw std::runtime_error(msg)`, as in `init_from_vmec.cpp:34-92`. -/
@[reducible] def thrown {β} (msg : String) : Res β := .error (.throw msg)

@[simp] theorem ok_bind {β γ} (x : β) (f : β → Res γ) : (Except.ok x >>= f : Res γ) = f x := (rfl)
@[simp] theorem error_bind {β γ} (e : Fault) (f : β → Res γ) :
    ((Except.error e : Res β) >>= f) = .error e := (rfl)
@[simp] theorem pure_eq_ok {β} (x : β) : (pure x : Res β) = .ok x := (rfl)
@[simp] theorem map_ok {β γ} (x : β) (f : β → γ) : (f <$> (Except.ok x : Res β)) = .ok (f x) := (rfl)

/-- Value of a scalar member that the constructor leaves indeterminate
(`/repo/src/_booz_xform/booz_xform.cpp:6-12` sets only `completed, verbose, mboz, nboz, aspect`).
Using it before it is set is undefined behaviour. -/
def need {β} (o : Option β) (name : String) : Res β :=
  match o with
  | some x => .ok x
  | none => ub ("indeterminate " ++ name)

@[simp] theorem need_some {β} (x : β) (name : String) : need (some x) name = .ok x := (rfl)

/-- The value is representable as a C++ `int` (32 bits, two's complement). The `int` of `src/_booz_xform`. -/
def FitsInt (x : Int) : Prop := -2147483648 ≤ x ∧ x < 2147483648

instance (x : Int) : Decidable (FitsInt x) := by unfold FitsInt; infer_instance

/-- Result of an `int` operation: signed overflow is undefined behaviour. As in `init.cpp:35-40`. -/
def i32 (x : Int) : Res Int := if FitsInt x then .ok x else ub "signed overflow"

theorem i32_ok {x : Int} (h : FitsInt x) : i32 x = .ok x := by simp [i32, h]

/-- C++ `a / b` on `int` (truncating). As in `init.cpp:38`, `surface_solve.cpp:133,176`. -/
def idiv (a b : Int) : Res Int := if b = 0 then ub "integer division by zero" else i32 (a.tdiv b)

/-- `for (k = 0; k < n; k++) body(k)`: iterations in increasing order, stopping at a fault.
As in `init_trig.cpp:23`. -/
def loop {σ : Type} : Nat → (Nat → σ → Res σ) → σ → Res σ
  | 0, _, s => .ok s
  | n + 1, body, s => loop n body s >>= body n

/-- `assert(c)`; `dbg` is true in builds without `NDEBUG`. As in `init.cpp:152-153`, `check_accuracy.cpp:39-77`. -/
def cassert (dbg : Bool) (c : Bool) (what : String) : Res Unit :=
  if dbg && !c then .error (.assertFail what) else .ok ()

/-- One-dimensional Eigen arrays `Eigen::ArrayXd`, `Eigen::ArrayXi`
(`/repo/src/_booz_xform/vector_matrix.hpp:10-11`).  A cell is `none` while it is allocated but not
yet written. -/
abbrev Vec (β : Type) := Array (Option β)

namespace Vec
variable {β : Type}

/-- `v[i]` as a value: out-of-range access and use of an indeterminate cell are undefined.
As in `init_trig.cpp:26`; a release build has no bounds check. -/
def rdN (v : Vec β) (i : Nat) : Res β :=
  match v[i]? with
  | some (some x) => .ok x
  | some none => ub "indeterminate array entry"
  | none => ub "index out of range"

/-- `v[i]` with an `int` index. As in `surface_solve.cpp:200`. -/
def rd (v : Vec β) (i : Int) : Res β := if 0 ≤ i then v.rdN i.toNat else ub "index out of range"

/-- `v[i]` copied without being interpreted (an indeterminate cell stays indeterminate).
As in `init_from_vmec.cpp:99`. -/
def rdCell (v : Vec β) (i : Nat) : Res (Option β) :=
  match v[i]? with
  | some c => .ok c
  | none => ub "index out of range"

/-- `v[i] = x`. As in `init.cpp:58-59`. -/
def wrN (v : Vec β) (i : Nat) (x : β) : Res (Vec β) :=
  if i < v.size then .ok (v.set! i (some x)) else ub "index out of range"

/-- `v[i] = c` for a copied cell. As in `init_from_vmec.cpp:99`. -/
def wrCell (v : Vec β) (i : Nat) (c : Option β) : Res (Vec β) :=
  if i < v.size then .ok (v.set! i c) else ub "index out of range"

/-- `v.setZero(n)`: resize and fill. As in `init.cpp:41-42`. -/
def setZero (zero : β) (n : Int) : Res (Vec β) :=
  if 0 ≤ n then .ok (Array.replicate n.toNat (some zero)) else ub "negative array size"

/-- `v.resize(n)`: Eigen keeps the contents when the size is unchanged and otherwise reallocates
without initialising. As in `init_from_vmec.cpp:97`. -/
def resize (v : Vec β) (n : Int) : Res (Vec β) :=
  if 0 ≤ n then .ok (if v.size = n.toNat then v else Array.replicate n.toNat none)
  else ub "negative array size"

/-- The fully initialised array with entries `f 0, …, f (n-1)`. Not in the code: notation for specifications. -/
def tab (n : Nat) (f : Nat → β) : Vec β := Array.ofFn (n := n) fun i => some (f i)

/-- Entry `i` of a vector, for use in specifications of initialised vectors; `d` elsewhere.
Not in the code: notation for specifications. -/
def val (d : β) (v : Vec β) (i : Nat) : β := (v[i]?.join).getD d

/-- The vector has exactly `n` entries, all initialised. Not in the code: notation for specifications. -/
def Full (v : Vec β) (n : Nat) : Prop := v.size = n ∧ ∀ i < n, ∃ x, v[i]? = some (some x)

/-- Elementwise construction of an Eigen array expression of size `n`. As in `surface_solve.cpp:204-216`. -/
def build (n : Nat) (g : Nat → Res β) : Res (Vec β) :=
  loop n (fun i v => do let x ← g i; pure (v.push (some x))) #[]

end Vec

/-- Two-dimensional Eigen arrays `Eigen::ArrayXXd` (`/repo/src/_booz_xform/vector_matrix.hpp:12`),
stored column-major (Eigen's default): entry `(i,j)` is at offset `j*rows+i`. -/
structure Mat (β : Type) where
  rows : Nat
  cols : Nat
  data : Vec β
  deriving DecidableEq

namespace Mat
variable {β : Type}

/-- Default-constructed (0 x 0) array. As the members of `booz_xform.hpp` after construction. -/
def empty : Mat β := ⟨0, 0, #[]⟩

/-- `a(i,j)`. As in `init_trig.cpp:39`; a release build has no bounds check. -/
def rdN (a : Mat β) (i j : Nat) : Res β :=
  if i < a.rows ∧ j < a.cols then a.data.rdN (j * a.rows + i) else ub "index out of range"

/-- `a(i,j)` with `int` indices. As in `surface_solve.cpp:143`. -/
def rd (a : Mat β) (i j : Int) : Res β :=
  if 0 ≤ i ∧ 0 ≤ j then a.rdN i.toNat j.toNat else ub "index out of range"

/-- `a(i,j) = x`. As in `init_trig.cpp:24`. -/
def wrN (a : Mat β) (i j : Nat) (x : β) : Res (Mat β) :=
  if i < a.rows ∧ j < a.cols then do
    let d ← a.data.wrN (j * a.rows + i) x
    pure { a with data := d }
  else ub "index out of range"

/-- `a.setZero(r,c)`. As in `surface_solve.cpp:56-59`. -/
def setZero (zero : β) (r c : Int) : Res (Mat β) :=
  if 0 ≤ r ∧ 0 ≤ c then .ok ⟨r.toNat, c.toNat, Array.replicate (r.toNat * c.toNat) (some zero)⟩
  else ub "negative array size"

/-- `a.resize(r,c)`: Eigen keeps the storage when the number of entries is unchanged and otherwise
reallocates without initialising. As in `init_from_vmec.cpp:126`. -/
def resize (a : Mat β) (r c : Int) : Res (Mat β) :=
  if 0 ≤ r ∧ 0 ≤ c then
    .ok ⟨r.toNat, c.toNat,
      if a.data.size = r.toNat * c.toNat then a.data
      else Array.replicate (r.toNat * c.toNat) none⟩
  else ub "negative array size"

/-- The fully initialised `r x c` array with entries `f i j`. Not in the code: notation for specifications. -/
def tab (r c : Nat) (f : Nat → Nat → β) : Mat β :=
  ⟨r, c, Vec.tab (r * c) fun k => f (k % r) (k / r)⟩

/-- Entry `(i,j)`, for use in specifications of initialised arrays; `d` elsewhere.
Not in the code: notation for specifications. -/
def val (d : β) (a : Mat β) (i j : Nat) : β := a.data.val d (j * a.rows + i)

/-- The array is `r x c` and fully initialised. Not in the code: notation for specifications. -/
def Full (a : Mat β) (r c : Nat) : Prop := a.rows = r ∧ a.cols = c ∧ a.data.Full (r * c)

end Mat

end Booz
