import Verif.Props.Exact
import Verif.Model.Session
import Verif.Props.Wout
import Verif.Spec.Boozmn

/-!
# Sessions with one object

Which sequences of calls on one object are legal, as a user would describe them: by what was called
before, by the files, and by the documented attributes of the object.
-/

namespace Booz.Spec
variable {α : Type} [Arith α]

/-- A `wout` file that can be used: it loads into a new object (with `verbose` at most 1), and its
mode numbers respect the maxima it declares. -/
structure ValidWout (f : NcFile α) (z : WoutSizes) (flux : Bool) : Prop where
  shapes : WoutShapes f z
  loads : ∃ b, readWout (fun _ => .nc f) "" flux construct = .ok () b
  ns_fit : z.ns ≤ 2147483644
  nyq_int : ∀ k, k < (intsOf f "xn_nyq").size → ((intsOf f "xn_nyq").val 0 k).natAbs < 2147483648
  modes : ModesWithin (woutInp f z (construct : St α).inp) (woutSizesOf f z)
    ((intsOf f "xm_nyq").val 0 (z.mnmax_nyq.toNat - 1))

/-- What happened so far: whether the last file read was a `wout` file that was loaded; whether the
object holds results (of a run, or read from a file) and `compute_surfs` was not assigned since; and
which files hold what this program wrote. -/
structure History where
  loaded : Bool
  results : Bool
  own : String → Bool

/-- Nothing happened. -/
def History.start : History := ⟨false, false, fun _ => false⟩

/-- The history after a call that returned (`true`) or threw (`false`). -/
def History.after (h : History) : Call → Bool → History
  | .readWout _ _, ok => { h with loaded := ok, results := false }
  | .setMboz _, _ => h
  | .setNboz _, _ => h
  | .setVerbose _, _ => h
  | .setSurfs _, _ => { h with results := false }
  | .run, _ => { h with results := true }
  | .write _ _ path, ok => { h with own := fun p => if p = path then ok else h.own p }
  | .readBoozmn _, _ => { h with loaded := false, results := true }

/-- The calls that may be made.  Files read by `read_wout` are usable, and have the four modes and
surfaces printed at `verbose > 1`; resolutions are at least `mboz = 1`, `nboz = 0`; `run` is called
when a `wout` file is loaded, for existing surfaces and a grid of representable size; files are written
while the object holds results; `read_boozmn` is given files this program wrote. -/
def Legal (h : History) (w : Sess α) : Call → Prop
  | .readWout path flux => ∃ f z, w.disk path = .nc f ∧ ValidWout f z flux ∧
      (w.obj.inp.verbose ≤ 1 ∨ (4 ≤ z.mnmax ∧ 4 ≤ z.ns))
  | .setMboz m => 1 ≤ m
  | .setNboz n => 0 ≤ n
  | .setVerbose _ => True
  | .setSurfs l => l.length ≤ 2147483644
  | .run => h.loaded = true ∧ w.obj.inp.compute_surfs.size ≠ 0 ∧
      (∀ ns, w.obj.inp.ns_in = some ns → ∀ k, k < w.obj.inp.compute_surfs.size →
        0 ≤ w.obj.inp.compute_surfs.val 0 k ∧ w.obj.inp.compute_surfs.val 0 k < ns) ∧
      (∀ asym nfp, w.obj.inp.asym = some asym → w.obj.inp.nfp = some nfp →
        GridFits asym w.obj.inp.mboz.toNat w.obj.inp.nboz.toNat nfp.toNat)
  | .write _ version _ => h.results = true ∧ VersionOk version
  | .readBoozmn path => h.own path = true

/-- The states reached by legal sessions that start with a new object and any files.  A session goes
on after an exception. -/
inductive Reach (disk : Disk α) : History → Sess α → Prop
  | start : Reach disk .start ⟨construct, disk⟩
  | ok {h : History} {w w' : Sess α} {c : Call} (hr : Reach disk h w) (hl : Legal h w c)
      (hp : perform c w = .ok () w') : Reach disk (h.after c true) w'
  | exc {h : History} {w w' : Sess α} {c : Call} {m : String} (hr : Reach disk h w) (hl : Legal h w c)
      (hp : perform c w = .exc m w') : Reach disk (h.after c false) w'

/-- The outputs have the sizes that `mboz`, `nboz`, `compute_surfs` and `asym` say, and all values
are determinate. -/
structure SizesAgree (s : St α) : Prop where
  ex : ∃ (K nb : Nat) (asym : Bool), s.inp.asym = some asym ∧
    s.out.mnboz = some (K : Int) ∧ s.out.ns_b = some (nb : Int) ∧
    (K : Int) = (2 * s.inp.nboz + 1) * (s.inp.mboz - 1) + s.inp.nboz + 1 ∧
    nb = s.inp.compute_surfs.size ∧
    s.out.xm_b.Full K ∧ s.out.xn_b.Full K ∧ s.out.s_b.Full nb ∧
    s.out.boozer_I.Full nb ∧ s.out.boozer_G.Full nb ∧
    s.out.spec.bmnc_b.Full K nb ∧ s.out.spec.rmnc_b.Full K nb ∧ s.out.spec.zmns_b.Full K nb ∧
    s.out.spec.numns_b.Full K nb ∧ s.out.spec.gmnc_b.Full K nb ∧
    (asym = true → s.out.spec.bmns_b.Full K nb ∧ s.out.spec.rmns_b.Full K nb ∧
      s.out.spec.zmnc_b.Full K nb ∧ s.out.spec.numnc_b.Full K nb ∧ s.out.spec.gmns_b.Full K nb)

/-- Why a legal call may throw: the surfaces selected do not all exist in the file to be loaded, or a
library call failed while writing. -/
inductive ThrowReason (w : Sess α) : Call → Prop
  | load {path : String} {flux : Bool} {f : NcFile α} {z : WoutSizes} (hd : w.disk path = .nc f)
      (hz : WoutShapes f z) (h : ¬ SurfsOk z.ns w.obj.inp.compute_surfs) : ThrowReason w (.readWout path flux)
  | write {env : Env} {version path : String} (h : ∃ k m, env k = some m) :
      ThrowReason w (.write env version path)

end Booz.Spec
