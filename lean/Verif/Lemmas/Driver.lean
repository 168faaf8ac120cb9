import Verif.Spec.Driver

/-!
# Reading the input file
-/

namespace Booz
open Spec

theorem cSpace_iff (c : Char) : cSpace c = true ↔ Blank c := by
  unfold cSpace Blank
  simp [Bool.or_eq_true, or_assoc]

theorem cSpace_false {c : Char} (h : ¬ Blank c) : cSpace c = false := by
  rw [← cSpace_iff] at h
  simpa using h

theorem isDig_iff (c : Char) : isDig c = true ↔ ∃ k, Digit c k := by
  unfold isDig Digit
  rw [Bool.and_eq_true, decide_eq_true_eq, decide_eq_true_eq]
  have e1 : ('0' ≤ c) ↔ 48 ≤ c.toNat := Iff.rfl
  have e2 : (c ≤ '9') ↔ c.toNat ≤ 57 := Iff.rfl
  rw [e1, e2]
  constructor
  · rintro ⟨a, b⟩
    exact ⟨c.toNat - 48, by omega, by omega⟩
  · rintro ⟨k, a, b⟩
    omega

theorem isDig_false {c : Char} (h : ∀ k, ¬ Digit c k) : isDig c = false := by
  have : ¬ isDig c = true := by rw [isDig_iff]; rintro ⟨k, hk⟩; exact h k hk
  simpa using this

theorem not_digit_blank {c : Char} (h : Blank c) : ∀ k, ¬ Digit c k := by
  unfold Blank at h
  unfold Digit
  simp only [List.mem_cons, List.not_mem_nil, or_false] at h
  rcases h with rfl | rfl | rfl | rfl | rfl | rfl <;> intro k <;> simp <;> omega

theorem digVal_snoc (ds : List Char) (c : Char) :
    digVal (ds ++ [c]) = 10 * digVal ds + (c.toNat - 48) := by
  unfold digVal
  rw [List.foldl_append]
  rfl

theorem decimal_all {ds : List Char} {n : Nat} (h : Decimal ds n) :
    ds ≠ [] ∧ (∀ c ∈ ds, isDig c = true) ∧ digVal ds = n := by
  induction h with
  | @one c k h =>
    refine ⟨by simp, ?_, ?_⟩
    · intro c' hc
      rw [List.mem_singleton] at hc
      rw [hc, isDig_iff]
      exact ⟨k, h⟩
    · show 10 * 0 + (c.toNat - 48) = k
      have := h.2
      omega
  | @more ds n c k h hc ih =>
    obtain ⟨a, b, e⟩ := ih
    refine ⟨by simp, ?_, ?_⟩
    · intro c' hc'
      rw [List.mem_append, List.mem_singleton] at hc'
      rcases hc' with hc' | rfl
      · exact b c' hc'
      · rw [isDig_iff]; exact ⟨k, hc⟩
    · rw [digVal_snoc, e]
      have := hc.2
      omega

theorem dropWhile_all {β : Type} {p : β → Bool} {w : List β} (h : ∀ c ∈ w, p c = true) (r : List β) :
    (w ++ r).dropWhile p = r.dropWhile p := by
  induction w with
  | nil => rfl
  | cons a w ih =>
    rw [List.cons_append, List.dropWhile_cons, if_pos (h a (by simp))]
    exact ih fun c hc => h c (List.mem_cons_of_mem _ hc)

theorem takeWhile_all {β : Type} {p : β → Bool} {w : List β} (h : ∀ c ∈ w, p c = true) (r : List β) :
    (w ++ r).takeWhile p = w ++ r.takeWhile p := by
  induction w with
  | nil => rfl
  | cons a w ih =>
    rw [List.cons_append, List.takeWhile_cons, if_pos (h a (by simp))]
    rw [ih fun c hc => h c (List.mem_cons_of_mem _ hc)]
    rfl

theorem takeSign_cons {c : Char} (h : c ≠ '+' ∧ c ≠ '-') (r : List Char) :
    takeSign (c :: r) = (false, c :: r) := by
  unfold takeSign
  split
  · rename_i e; injection e with e1; exact absurd e1 h.2
  · rename_i e; injection e with e1; exact absurd e1 h.1
  · rfl

theorem digit_not_sign {c : Char} (h : isDig c = true) : c ≠ '+' ∧ c ≠ '-' := by
  constructor <;> rintro rfl <;> exact absurd h (by decide)

/-- A number word: its sign, its digits and its value. -/
theorem denotes_split {t : List Char} {n : Int} (h : Denotes t n) : ∃ neg ds, ds ≠ [] ∧
    (∀ c ∈ ds, isDig c = true) ∧ (∀ r, takeSign (t ++ r) = (neg, ds ++ r)) ∧ ds.length ≤ t.length ∧
    n = if neg then -(digVal ds : Int) else digVal ds := by
  cases h with
  | @plain _ n h =>
    obtain ⟨a, b, e⟩ := decimal_all h
    refine ⟨false, t, a, b, ?_, Nat.le_refl _, by rw [e]; rfl⟩
    intro r
    obtain ⟨c, t, rfl⟩ := List.exists_cons_of_ne_nil a
    exact takeSign_cons (digit_not_sign (b c (by simp))) _
  | @plus ds n h =>
    obtain ⟨a, b, e⟩ := decimal_all h
    exact ⟨false, ds, a, b, fun r => rfl, by simp, by rw [e]; rfl⟩
  | @minus ds n h =>
    obtain ⟨a, b, e⟩ := decimal_all h
    exact ⟨true, ds, a, b, fun r => rfl, by simp, by rw [e]; rfl⟩

/-- The end of a word. -/
def WordEnd (r : List Char) : Prop := r = [] ∨ ∃ c r', r = c :: r' ∧ Blank c

theorem ends_dig {r : List Char} (h : WordEnd r) : r.takeWhile isDig = [] ∧ r.dropWhile isDig = r := by
  rcases h with rfl | ⟨c, r', rfl, hc⟩
  · exact ⟨rfl, rfl⟩
  · rw [List.takeWhile_cons, List.dropWhile_cons, isDig_false (not_digit_blank hc)]
    exact ⟨rfl, rfl⟩

theorem notBlank_of_ne {w t r : List Char} (hw : ∀ c ∈ w, Blank c) (h0 : t ≠ [])
    (ht : ∀ c ∈ t, ¬ Blank c) : ∃ c t', t = c :: t' ∧ (w ++ t ++ r).dropWhile cSpace = t ++ r ∧
      t ++ r = c :: (t' ++ r) := by
  obtain ⟨c, t', rfl⟩ := List.exists_cons_of_ne_nil h0
  refine ⟨c, t', rfl, ?_, rfl⟩
  rw [List.append_assoc, dropWhile_all fun c hc => (cSpace_iff c).mpr (hw c hc), List.cons_append,
    List.dropWhile_cons, cSpace_false (ht c (by simp))]
  rfl

/-- Extracting a number. -/
theorem extractInt_word {w t r : List Char} {n : Int} (hw : ∀ c ∈ w, Blank c) (h0 : t ≠ [])
    (ht : ∀ c ∈ t, ¬ Blank c) (hr : WordEnd r) (h : IntWord t n) :
    extractInt ⟨w ++ t ++ r, false, false⟩ = (⟨r, false, r.isEmpty⟩, some n) := by
  obtain ⟨c, t', e, ed, ec⟩ := notBlank_of_ne (r := r) hw h0 ht
  obtain ⟨neg, ds, hd, hall, hs, -, hn⟩ := denotes_split h.1
  obtain ⟨e1, e2⟩ := ends_dig hr
  unfold extractInt
  rw [if_neg (by simp)]
  simp only
  rw [ed, ec]
  simp only
  rw [← ec, hs r]
  simp only
  rw [takeWhile_all hall, dropWhile_all hall, e1, e2, List.append_nil, ← hn,
    if_neg (by simpa using hd), if_neg (by have := h.2.1; omega), if_neg (by have := h.2.2; omega)]

/-- Extracting a word that is not a number: 0 is stored. -/
theorem extractInt_bad {w t r : List Char} (hw : ∀ c ∈ w, Blank c) (h0 : t ≠ [])
    (ht : ∀ c ∈ t, ¬ Blank c) (hr : WordEnd r) (h : NotNumber t) :
    (extractInt ⟨w ++ t ++ r, false, false⟩).1.fail = true ∧
      (extractInt ⟨w ++ t ++ r, false, false⟩).2 = some 0 := by
  obtain ⟨c, t', e, ed, ec⟩ := notBlank_of_ne (r := r) hw h0 ht
  have key : (takeSign (t ++ r)).2.takeWhile isDig = [] := by
    cases h with
    | @letter c r1 hc hs =>
      rw [List.cons_append, takeSign_cons hs, List.takeWhile_cons, isDig_false hc]
      rfl
    | @sign s r1 hs hc =>
      have e3 : (takeSign (s :: r1 ++ r)).2 = r1 ++ r := by
        rcases hs with rfl | rfl <;> rfl
      rw [e3]
      cases r1 with
      | nil => exact (ends_dig hr).1
      | cons c2 r2 =>
        rw [List.cons_append, List.takeWhile_cons, isDig_false (hc c2 r2 rfl)]
        rfl
  unfold extractInt
  rw [if_neg (by simp)]
  simp only
  rw [ed, ec]
  simp only
  rw [← ec, key]
  exact ⟨rfl, rfl⟩

/-- Extracting a number that does not fit: the nearest one that does is stored. -/
theorem extractInt_huge {w t r : List Char} (hw : ∀ c ∈ w, Blank c) (h0 : t ≠ [])
    (ht : ∀ c ∈ t, ¬ Blank c) (hr : WordEnd r) (h : HugeWord t) :
    (extractInt ⟨w ++ t ++ r, false, false⟩).1.fail = true ∧
      ∃ x, (extractInt ⟨w ++ t ++ r, false, false⟩).2 = some x := by
  obtain ⟨c, t', e, ed, ec⟩ := notBlank_of_ne (r := r) hw h0 ht
  obtain ⟨n, h1, h2⟩ := h
  obtain ⟨neg, ds, hd, hall, hs, -, hn⟩ := denotes_split h1
  obtain ⟨e1, e2⟩ := ends_dig hr
  unfold extractInt
  rw [if_neg (by simp)]
  simp only
  rw [ed, ec]
  simp only
  rw [← ec, hs r]
  simp only
  rw [takeWhile_all hall, dropWhile_all hall, e1, e2, List.append_nil, ← hn,
    if_neg (by simpa using hd)]
  unfold FitsInt at h2
  by_cases h3 : n < -2147483648
  · rw [if_pos h3]; exact ⟨rfl, _, rfl⟩
  · rw [if_neg h3, if_pos (by omega)]; exact ⟨rfl, _, rfl⟩

/-- Nothing but white space is left. -/
theorem extractInt_end {w : List Char} (hw : ∀ c ∈ w, Blank c) (eof : Bool) :
    (extractInt ⟨w, false, eof⟩).1.fail = true ∧ (extractInt ⟨w, false, eof⟩).2 = none := by
  unfold extractInt
  cases eof
  · rw [if_neg (by simp)]
    have e := dropWhile_all (fun c hc => (cSpace_iff c).mpr (hw c hc)) []
    rw [List.append_nil] at e
    simp only
    rw [e]
    exact ⟨rfl, rfl⟩
  · exact ⟨rfl, rfl⟩

/-- A stream that is not good stays so. -/
theorem extractInt_failed {s : IStream} (h : s.fail = true) :
    (extractInt s).1.fail = true ∧ (extractInt s).2 = none := by
  unfold extractInt
  rw [if_pos (by rw [h]; rfl)]
  exact ⟨rfl, rfl⟩

theorem takeWhile_word {t r : List Char} (ht : ∀ c ∈ t, ¬ Blank c) (hr : WordEnd r) :
    (t ++ r).takeWhile (fun c => !cSpace c) = t ∧ (t ++ r).dropWhile (fun c => !cSpace c) = r := by
  have hall : ∀ c ∈ t, (!cSpace c) = true := fun c hc => by rw [cSpace_false (ht c hc)]; rfl
  rw [takeWhile_all hall, dropWhile_all hall]
  rcases hr with rfl | ⟨c, r', rfl, hc⟩
  · exact ⟨List.append_nil _, rfl⟩
  · rw [List.takeWhile_cons, List.dropWhile_cons, (cSpace_iff c).mpr hc]
    exact ⟨List.append_nil _, rfl⟩

/-- Extracting a word. -/
theorem extractWord_word {w t r : List Char} (hw : ∀ c ∈ w, Blank c) (h0 : t ≠ [])
    (ht : ∀ c ∈ t, ¬ Blank c) (hr : WordEnd r) :
    extractWord ⟨w ++ t ++ r, false, false⟩ = (⟨r, false, r.isEmpty⟩, t) := by
  obtain ⟨c, t', e, ed, ec⟩ := notBlank_of_ne (r := r) hw h0 ht
  obtain ⟨e1, e2⟩ := takeWhile_word ht hr
  unfold extractWord
  rw [if_neg (by simp)]
  simp only
  rw [ed, ec]
  simp only
  rw [← ec, e1, e2]

theorem extractWord_end {w : List Char} (hw : ∀ c ∈ w, Blank c) (eof : Bool) :
    (extractWord ⟨w, false, eof⟩).1.fail = true := by
  unfold extractWord
  cases eof
  · rw [if_neg (by simp)]
    have e := dropWhile_all (fun c hc => (cSpace_iff c).mpr (hw c hc)) []
    rw [List.append_nil] at e
    simp only
    rw [e]
    rfl
  · rfl

/-- Where a good stream is: in front of these words. -/
structure At (s : IStream) (ts : List (List Char)) : Prop where
  text : IsText s.rest ts
  good : s.fail = false
  eof : s.eof = true → s.rest = []

theorem At.start {content : List Char} {ts : List (List Char)} (h : IsText content ts) :
    At ⟨content, false, false⟩ ts := ⟨h, rfl, fun e => by simp at e⟩

theorem At.next {r : List Char} {ts : List (List Char)} (h : IsText r ts) :
    At ⟨r, false, r.isEmpty⟩ ts := ⟨h, rfl, fun e => by simpa using e⟩

/-- In front of a word. -/
theorem At.word {s : IStream} {t : List Char} {ts : List (List Char)} (h : At s (t :: ts)) :
    ∃ w r, s = ⟨w ++ t ++ r, false, false⟩ ∧ (∀ c ∈ w, Blank c) ∧ t ≠ [] ∧ (∀ c ∈ t, ¬ Blank c) ∧
      WordEnd r ∧ IsText r ts := by
  obtain ⟨rest, fail, eof⟩ := s
  obtain ⟨h1, h2, h3⟩ := h
  simp only at h1 h2 h3
  subst h2
  cases h1 with
  | word w _ r _ hw h0 ht hr h =>
    cases eof with
    | true =>
      have := h3 rfl
      simp at this
      exact absurd this.2.1 h0
    | false => exact ⟨w, r, rfl, hw, h0, ht, hr, h⟩

theorem At.int {s : IStream} {t : List Char} {ts : List (List Char)} {n : Int} (h : At s (t :: ts))
    (hn : IntWord t n) : ∃ s', extractInt s = (s', some n) ∧ At s' ts := by
  obtain ⟨w, r, rfl, hw, h0, ht, hr, hx⟩ := h.word
  exact ⟨_, extractInt_word hw h0 ht hr hn, .next hx⟩

theorem At.ext {s : IStream} {t : List Char} {ts : List (List Char)} (h : At s (t :: ts)) :
    ∃ s', extractWord s = (s', t) ∧ At s' ts := by
  obtain ⟨w, r, rfl, hw, h0, ht, hr, hx⟩ := h.word
  exact ⟨_, extractWord_word hw h0 ht hr, .next hx⟩

theorem At.none {s : IStream} (h : At s []) :
    (extractInt s).1.fail = true ∧ (extractInt s).2 = none ∧ (extractWord s).1.fail = true := by
  obtain ⟨rest, fail, eof⟩ := s
  obtain ⟨h1, h2, h3⟩ := h
  simp only at h1 h2 h3
  subst h2
  cases h1 with
  | blank w hw => exact ⟨(extractInt_end hw _).1, (extractInt_end hw _).2, extractWord_end hw _⟩

theorem extractSurfs_fail {s : IStream} (h : (extractInt s).1.fail = true) : extractSurfs s = [] := by
  rw [extractSurfs, dif_pos h]

theorem extractSurfs_ok {s s' : IStream} {n : Int} (h : extractInt s = (s', some n))
    (hf : s'.fail = false) : extractSurfs s = n :: extractSurfs s' := by
  rw [extractSurfs, h, dif_neg (by simp [hf])]
  rfl

theorem At.surfs {ts : List (List Char)} {l : List Int} (hl : ListsInts ts l) :
    ∀ {s : IStream}, At s ts → extractSurfs s = l := by
  induction hl with
  | done => exact fun h => extractSurfs_fail h.none.1
  | stop hb =>
    intro s h
    obtain ⟨w, r, rfl, hw, h0, ht, hr, -⟩ := h.word
    exact extractSurfs_fail (extractInt_bad hw h0 ht hr hb).1
  | more hn _ ih =>
    intro s h
    obtain ⟨s', e, h'⟩ := h.int hn
    rw [extractSurfs_ok e h'.good, ih h']

/-! ### The whole file, C++ -/

section console
variable {α : Type}

/-- Only the console changes, by these lines. -/
def World.print (w : World α) (l : List String) : World α := { w with console := w.console ++ l }

theorem World.print_nil (w : World α) : w.print [] = w := by
  unfold World.print; rw [List.append_nil]
theorem World.print_print (w : World α) (l l' : List String) :
    (w.print l).print l' = w.print (l ++ l') := by
  unfold World.print; simp only; rw [List.append_assoc]
@[simp] theorem World.print_disk (w : World α) (l : List String) : (w.print l).disk = w.disk := (rfl)

theorem say_apply (x : String) (w : World α) : say x w = .ok () (w.print [x]) := (rfl)
theorem say_bind {β : Type} (x : String) (f : Unit → Prog (World α) β) (w : World α) :
    (say x >>= f) w = f () (w.print [x]) := (rfl)

theorem say_all {β : Type} (l : List β) (g : β → String) (w : World α) :
    l.forM (fun v => say (g v)) w = .ok () (w.print (l.map g)) := by
  induction l generalizing w with
  | nil => exact congrArg (Out.ok ()) (w.print_nil).symm
  | cons a l ih =>
    show (say (g a) >>= fun _ => l.forM fun v => say (g v)) w = _
    rw [say_bind, ih, World.print_print]
    rfl

theorem say_list (l : List String) (w : World α) : l.forM say w = .ok () (w.print l) := by
  have := say_all l id w
  rw [List.map_id] at this
  exact this

theorem say_all_bind {β γ : Type} (l : List β) (g : β → String) (f : Unit → Prog (World α) γ)
    (w : World α) : (l.forM (fun v => say (g v)) >>= f) w = f () (w.print (l.map g)) := by
  rw [Prog.bind_def, say_all]

theorem throwIf_false {β : Type} (m : String) (f : Unit → Prog (World α) β) (w : World α) :
    (throwIf false m >>= f) w = f () w := (rfl)
theorem throwIf_true {β : Type} (m : String) (f : Unit → Prog (World α) β) (w : World α) :
    (throwIf true m >>= f) w = .exc m w := (rfl)

/-- What the C++ driver prints while reading a request. -/
def saysCpp (r : Request) : List String :=
  ["Read mboz = " ++ toString r.mboz ++ ", nboz = " ++ toString r.nboz,
   "Read extension = " ++ String.ofList r.ext] ++
  r.surfs.map (fun v => "Read value " ++ toString v) ++
  ["Unable to read more.", "Read compute_surfs =" ++ spaced r.surfs]

theorem readRequest_ok {content : List Char} {r : Request} (h : Asks content r) (w : World α) :
    readRequest content w = .ok r (w.print (saysCpp r)) := by
  obtain ⟨tm, tn, ts, ht, hm, hn, hl⟩ := h
  obtain ⟨s1, e1, a1⟩ := (At.start ht).int hm
  obtain ⟨s2, e2, a2⟩ := a1.int hn
  obtain ⟨s3, e3, a3⟩ := a2.ext
  have e4 := At.surfs hl a3
  unfold readRequest
  simp only [e1, e2, e3, e4, need_some, a2.good, a3.good]
  rw [Prog.lift_ok_bind, Prog.lift_ok_bind, say_bind, throwIf_false, say_bind, throwIf_false,
    say_all_bind, say_bind, say_bind, World.print_print, World.print_print, World.print_print,
    World.print_print, Prog.pure_apply]
  unfold saysCpp
  simp only [List.append_assoc, List.cons_append, List.nil_append]

/-- In front of a word something is stored. -/
theorem At.some {s : IStream} {t : List Char} {ts : List (List Char)} (h : At s (t :: ts)) :
    ∃ n, (extractInt s).2 = some n := by
  obtain ⟨w, r, rfl, hw, h0, ht, hr, -⟩ := h.word
  obtain ⟨c, t', e, ed, ec⟩ := notBlank_of_ne (r := r) hw h0 ht
  unfold extractInt
  rw [if_neg (by simp)]
  simp only
  rw [ed, ec]
  simp only
  generalize (if (takeSign (c :: (t' ++ r))).1 = true then
    -(digVal ((takeSign (c :: (t' ++ r))).2.takeWhile isDig) : Int)
    else (digVal ((takeSign (c :: (t' ++ r))).2.takeWhile isDig) : Int)) = v
  split
  · exact ⟨_, rfl⟩
  split
  · exact ⟨_, rfl⟩
  split
  · exact ⟨_, rfl⟩
  · exact ⟨_, rfl⟩

/-- The two numbers are printed before the stream is tested. -/
theorem readRequest_ub {content : List Char} (w : World α)
    (h : (extractInt ⟨content, false, false⟩).2 = none ∨
      (extractInt (extractInt ⟨content, false, false⟩).1).2 = none) :
    ∃ m, readRequest content w = .ub m := by
  unfold readRequest
  simp only
  cases e1 : (extractInt ⟨content, false, false⟩).2 with
  | none => exact ⟨_, Prog.lift_ub_bind _ _ _⟩
  | some m =>
    rcases h with h | h
    · rw [e1] at h; cases h
    rw [h, need_some, Prog.lift_ok_bind]
    exact ⟨_, Prog.lift_ub_bind _ _ _⟩

/-- Otherwise reading ends with a request or an exception, and only prints. -/
theorem readRequest_safe {content : List Char} (w : World α) {m n : Int}
    (h1 : (extractInt ⟨content, false, false⟩).2 = some m)
    (h2 : (extractInt (extractInt ⟨content, false, false⟩).1).2 = some n) :
    (∃ r l, readRequest content w = .ok r (w.print l)) ∨
      (∃ x l, readRequest content w = .exc x (w.print l)) := by
  unfold readRequest
  simp only
  rw [h1, h2, need_some, need_some, Prog.lift_ok_bind, Prog.lift_ok_bind, say_bind]
  cases (extractInt (extractInt ⟨content, false, false⟩).1).1.fail with
  | true => exact .inr ⟨_, _, throwIf_true _ _ _⟩
  | false =>
    rw [throwIf_false, say_bind]
    cases (extractWord (extractInt (extractInt ⟨content, false, false⟩).1).1).1.fail with
    | true =>
      rw [throwIf_true, World.print_print]
      exact .inr ⟨_, _, rfl⟩
    | false =>
      rw [throwIf_false, say_all_bind, say_bind, say_bind, World.print_print, World.print_print,
        World.print_print, World.print_print, Prog.pure_apply]
      exact .inl ⟨_, _, rfl⟩

/-! ### The whole file, Python -/

/-- No character that only Python regards as white space. -/
def NoSeparators (content : List Char) : Prop := ∀ c ∈ content, pySpace c = true → Blank c

theorem pySpace_blank {c : Char} (h : Blank c) : pySpace c = true := by
  unfold pySpace
  rw [(cSpace_iff c).mpr h]
  rfl

theorem pySplitAux_blank {w : List Char} (hw : ∀ c ∈ w, Blank c) (r : List Char) :
    pySplitAux [] (w ++ r) = pySplitAux [] r := by
  induction w with
  | nil => rfl
  | cons c w ih =>
    rw [List.cons_append, pySplitAux, if_pos (pySpace_blank (hw c (by simp)))]
    exact ih fun c hc => hw c (List.mem_cons_of_mem _ hc)

theorem pySplitAux_word {t : List Char} (ht : ∀ c ∈ t, pySpace c = false) (r cur : List Char) :
    pySplitAux cur (t ++ r) = pySplitAux (t.reverse ++ cur) r := by
  induction t generalizing cur with
  | nil => rfl
  | cons c t ih =>
    rw [List.cons_append, pySplitAux, if_neg (by rw [ht c (by simp)]; simp),
      ih (fun c hc => ht c (List.mem_cons_of_mem _ hc)), List.reverse_cons, List.append_assoc]
    rfl

theorem isText_nil {l : List Char} {ts : List (List Char)} (h : IsText l ts) (hl : l = []) :
    ts = [] := by
  cases h with
  | blank w hw => rfl
  | word w t r ts hw h0 ht hr h =>
    simp at hl
    exact absurd hl.2.1 h0

theorem pySplit_text {content : List Char} {ts : List (List Char)} (h : IsText content ts)
    (hn : NoSeparators content) : pySplit content = ts := by
  unfold pySplit
  induction h with
  | blank w hw =>
    have := pySplitAux_blank hw []
    rw [List.append_nil] at this
    rw [this]
    rfl
  | word w t r ts hw h0 ht hr h ih =>
    have hp : ∀ c ∈ t, pySpace c = false := by
      intro c hc
      cases e : pySpace c with
      | false => rfl
      | true => exact absurd (hn c (by simp [hc]) e) (ht c hc)
    rw [List.append_assoc, pySplitAux_blank hw, pySplitAux_word hp, List.append_nil]
    have hrn : NoSeparators r := fun c hc => hn c (by simp [hc])
    have h1 : t.reverse.isEmpty = false := by simpa using h0
    rcases hr with rfl | ⟨c, r', rfl, hc⟩
    · rw [pySplitAux, if_neg (by rw [h1]; simp), List.reverse_reverse]
      rw [isText_nil h rfl]
    · rw [pySplitAux, if_pos (pySpace_blank hc), if_neg (by rw [h1]; simp), List.reverse_reverse]
      have h2 := ih hrn
      rw [pySplitAux, if_pos (pySpace_blank hc)] at h2
      exact congrArg _ h2

theorem pyDigits_all {ds : List Char} (h0 : ds ≠ []) (h : ∀ c ∈ ds, isDig c = true) :
    pyDigits ds = some ds := by
  induction ds with
  | nil => exact absurd rfl h0
  | cons c r ih =>
    cases r with
    | nil => rw [pyDigits, if_pos (h c (by simp))]
    | cons d r =>
      have hd := h d (by simp)
      rw [pyDigits, if_pos (h c (by simp)), ih (by simp) fun c hc => h c (List.mem_cons_of_mem _ hc)]
      · rfl
      · rintro rfl
        exact absurd hd (by decide)

theorem pyInt_word {t : List Char} {n : Int} (h : Denotes t n) (hl : t.length ≤ 4300) :
    pyInt t = some n := by
  obtain ⟨neg, ds, hd, hall, hs, hlen, hn⟩ := denotes_split h
  have e := hs []
  rw [List.append_nil, List.append_nil] at e
  unfold pyInt
  simp only
  rw [e]
  simp only
  rw [pyDigits_all hd hall]
  simp only
  rw [if_neg (by omega), hn]

theorem pyDigits_none {c : Char} {r : List Char} (h : isDig c = false) : pyDigits (c :: r) = none := by
  cases r with
  | nil => rw [pyDigits, if_neg (by rw [h]; simp)]
  | cons d r =>
    by_cases e : d = '_'
    · subst e
      rw [pyDigits, if_neg (by rw [h]; simp)]
    · rw [pyDigits, if_neg (by rw [h]; simp)]
      exact e

theorem pyInt_bad {t : List Char} (h : NotNumber t) : pyInt t = none := by
  unfold pyInt
  cases h with
  | @letter c r hc hs =>
    rw [takeSign_cons hs]
    simp only
    rw [pyDigits_none (isDig_false hc)]
  | @sign s r hs hc =>
    have e3 : (takeSign (s :: r)).2 = r := by rcases hs with rfl | rfl <;> rfl
    simp only
    rw [e3]
    cases r with
    | nil => rfl
    | cons c r => rw [pyDigits_none (isDig_false (hc c r rfl))]

/-- What the Python driver prints while reading the surfaces. -/
def saysPySurfs (stopped : Bool) (l : List Int) : List String :=
  l.map (fun v => "Read value " ++ toString v) ++ (if stopped then ["Unable to read more."] else [])

theorem pySurfs_ok {ts : List (List Char)} {l : List Int} (h : ListsInts ts l)
    (hl : ∀ t ∈ ts, t.length ≤ 4300) : ∃ stopped, ∀ w : World α,
      pySurfs ts w = .ok l (w.print (saysPySurfs stopped l)) := by
  induction h with
  | done => exact ⟨false, fun w => congrArg (Out.ok []) (w.print_nil).symm⟩
  | stop hb =>
    refine ⟨true, fun w => ?_⟩
    rw [pySurfs, pyInt_bad hb]
    rfl
  | more hn _ ih =>
    obtain ⟨st, hs⟩ := ih fun t ht => hl t (List.mem_cons_of_mem _ ht)
    refine ⟨st, fun w => ?_⟩
    rw [pySurfs, pyInt_word hn.1 (hl _ (by simp))]
    simp only
    rw [say_bind, Prog.bind_def, hs, World.print_print]
    rfl

/-- What the Python driver prints while reading a request. -/
def saysPy (stopped : Bool) (r : Request) : List String :=
  ["Read mboz = " ++ toString r.mboz ++ ", nboz = " ++ toString r.nboz,
   "Read extension = " ++ String.ofList r.ext] ++ saysPySurfs stopped r.surfs

/-- Python's `int` takes the numbers: none has more than 4300 characters. -/
def ShortWords (content : List Char) : Prop := ∀ ts, IsText content ts → ∀ t ∈ ts, t.length ≤ 4300

theorem pyRequest_ok {content : List Char} {r : Request} (h : Asks content r)
    (hn : NoSeparators content) (hs : ShortWords content) (path : String) : ∃ stopped,
      ∀ w : World α, pyRequest path content w = .ok r (w.print (saysPy stopped r)) := by
  obtain ⟨tm, tn, ts, ht, hm, hn', hl⟩ := h
  have hlen := hs _ ht
  obtain ⟨st, e⟩ := pySurfs_ok (α := α) hl fun t h => hlen t (by simp [h])
  refine ⟨st, fun w => ?_⟩
  unfold pyRequest
  rw [pySplit_text ht hn]
  simp only
  rw [pyInt_word hm.1 (hlen _ (by simp)), pyInt_word hn'.1 (hlen _ (by simp))]
  simp only
  rw [say_bind, say_bind, Prog.bind_def, e, World.print_print, World.print_print]
  simp only [Prog.pure_apply]
  rfl

/-- The Python parser returns or raises; it changes only the console. -/
theorem pySurfs_safe (ts : List (List Char)) (w : World α) :
    ∃ l c, pySurfs ts w = .ok l (w.print c) := by
  induction ts generalizing w with
  | nil => exact ⟨[], [], congrArg (Out.ok []) (w.print_nil).symm⟩
  | cons t ts ih =>
    rw [pySurfs]
    cases pyInt t with
    | none => exact ⟨_, _, rfl⟩
    | some v =>
      simp only
      rw [say_bind, Prog.bind_def]
      obtain ⟨l, c, e⟩ := ih (w.print ["Read value " ++ toString v])
      rw [e, World.print_print]
      exact ⟨_, _, rfl⟩

theorem pyRequest_safe (path : String) (content : List Char) (w : World α) :
    (∃ r l, pyRequest path content w = .ok r (w.print l)) ∨
      (∃ x l, pyRequest path content w = .exc x (w.print l)) := by
  unfold pyRequest
  generalize pySplit content = toks
  have hx : ∀ m : String, (Prog.throw m : Prog (World α) Request) w = .exc m (w.print []) := by
    intro m; rw [World.print_nil]; rfl
  rcases toks with _ | ⟨t0, _ | ⟨t1, _ | ⟨t2, ts⟩⟩⟩
  · exact .inr ⟨_, _, hx _⟩
  · exact .inr ⟨_, _, hx _⟩
  · exact .inr ⟨_, _, hx _⟩
  · simp only
    cases pyInt t0 with
    | none => exact .inr ⟨_, _, hx _⟩
    | some m =>
      cases pyInt t1 with
      | none => exact .inr ⟨_, _, hx _⟩
      | some n =>
        simp only
        rw [say_bind, say_bind, Prog.bind_def, World.print_print]
        obtain ⟨l, c, e⟩ := pySurfs_safe (α := α) ts (w.print
          (["Read mboz = " ++ toString m ++ ", nboz = " ++ toString n] ++
            ["Read extension = " ++ String.ofList t2]))
        rw [e, World.print_print]
        exact .inl ⟨_, _, rfl⟩

end console

end Booz
