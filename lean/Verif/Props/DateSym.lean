import Verif.Model.Date
import Mathlib.Tactic.Common

/-! Helper for C48: reading texts whose digits are those of a date.  A text is given by its characters, each of which is
fixed or a digit of a field; `time.Parse` on such texts is run symbolically, and shown to agree with the real run. -/

namespace Xmp.Props

open GoStr

/-- A field of a date; `frac k` is a fraction of a second with `k` digits, `oh` and `om` are hours and minutes of the
zone offset. -/
inductive Fld where
  | year | month | day | hour | min | sec | oh | om
  | frac (k : Nat)
deriving DecidableEq

/-- Number of digits of a field. -/
def Fld.width : Fld → Nat
  | .year => 4
  | .frac k => k
  | _ => 2

/-- A character: fixed, or a digit of a field (counted from the left). -/
inductive SC where
  | ch (c : Char)
  | dg (f : Fld) (i : Nat)
deriving DecidableEq

/-- The values of the fields. -/
abbrev FEnv := Fld → Nat

/-- The values are in range. -/
structure FEnv.Ok (e : FEnv) : Prop where
  year : e .year < 10000
  month : 1 ≤ e .month ∧ e .month ≤ 12
  day : e .day < 100
  hour : e .hour < 24
  min : e .min < 60
  sec : e .sec < 60
  oh : e .oh ≤ 24
  om : e .om < 60
  frac : ∀ k, e (.frac k) < 10 ^ k

/-- The actual character. -/
def SC.conc (e : FEnv) : SC → Char
  | .ch c => c
  | .dg f i => digitChar (e f / 10 ^ (f.width - 1 - i) % 10)

/-- Is it a digit? -/
def SC.isDig : SC → Bool
  | .ch c => isDigit c
  | .dg _ _ => true

/-- A value read: a number, a field, a year given by its last two digits, the nanoseconds of a fraction. -/
inductive SV where
  | cst (n : Nat)
  | fld (f : Fld)
  | y2
  | nano (k : Nat)
deriving DecidableEq

def SV.eval (e : FEnv) : SV → Nat
  | .cst n => n
  | .fld f => e f
  | .y2 => if e .year % 100 ≥ 69 then e .year % 100 + 1900 else e .year % 100 + 2000
  | .nano k => e (.frac k) * 10 ^ (9 - k)

/-- An offset read. -/
inductive SOff where
  | zero | pos | neg
deriving DecidableEq

def SOff.eval (e : FEnv) : SOff → Int
  | .zero => 0
  | .pos => (e .oh * 60 + e .om) * 60
  | .neg => -((e .oh * 60 + e .om) * 60)

/-- The fields read so far.  When `sure` is false, reading may have failed and the fields are not known. -/
structure SF where
  sure : Bool := true
  year : SV := .cst 0
  month : Option SV := none
  day : Option SV := none
  hour : SV := .cst 0
  min : SV := .cst 0
  sec : SV := .cst 0
  nsec : SV := .cst 0
  off : Option SOff := none
deriving DecidableEq

def SF.eval (e : FEnv) (s : SF) : Fields where
  year := s.year.eval e
  month := s.month.map (·.eval e)
  day := s.day.map (·.eval e)
  hour := s.hour.eval e
  min := s.min.eval e
  sec := s.sec.eval e
  nsec := s.nsec.eval e
  off := s.off.map (·.eval e)

/-- The number of two digits, if known. -/
def num2 : SC → SC → Option SV
  | .ch a, .ch b => some (.cst (digitVal a * 10 + digitVal b))
  | .dg f 0, .dg g 1 => if f = g ∧ f.width = 2 then some (.fld f) else none
  | .dg f 2, .dg g 3 => if f = .year ∧ g = .year then some .y2 else none
  | _, _ => none

/-- `getnum`: `none` is failure; the value is `none` if it is not known. -/
def symGetnum (fixed : Bool) : List SC → Option (Option SV × List SC)
  | a :: b :: r =>
    if !a.isDig then none
    else if !b.isDig then (if fixed then none else some (none, b :: r))
    else some (num2 a b, r)
  | [a] => if !a.isDig || fixed then none else some (none, [])
  | [] => none

/-- Is it the field `f`, or a number for which `p` holds?  `none`: not known. -/
def inRange (f : Fld) (p : Nat → Bool) : Option SV → Option Bool
  | some (.cst n) => some (p n)
  | some (.fld g) => if f = g then some true else none
  | _ => none

/-- Store a value: `none` is failure. -/
def store (st : SF) (f : Fld) (p : Nat → Bool) (x : Option SV) (set : SV → SF) : Option SF :=
  match inRange f p x, x with
  | some true, some v => some (set v)
  | some false, _ => none
  | _, _ => some { st with sure := false }

def symStartsFrac : List SC → Bool
  | a :: b :: _ => (a = .ch '.' || a = .ch ',') && b.isDig
  | _ => false

/-- The digits of a fraction. -/
def fracRun (k : Nat) : List SC := (List.range k).map (.dg (.frac k))

/-- The value of a run of digits after the separator. -/
def runVal (run : List SC) : Option SV :=
  if run = fracRun run.length ∧ run.length ≤ 9 then some (.nano run.length) else none

def setNsec (st : SF) : Option SV → SF
  | some v => { st with nsec := v }
  | none => { st with sure := false }

def symReadOff (st : SF) (sign a b c d : SC) : Option SF :=
  if a.isDig && b.isDig && c.isDig && d.isDig then
    if sign = .ch '+' ∨ sign = .ch '-' then
      if a = .dg .oh 0 ∧ b = .dg .oh 1 ∧ c = .dg .om 0 ∧ d = .dg .om 1 then
        some { st with off := some (if sign = .ch '+' then .pos else .neg) }
      else some { st with sure := false }
    else none
  else none

/-- One element of a layout, symbolically; `none` is failure. -/
def symTok (next : Option Tok) (st : SF) (s : List SC) : Tok → Option (SF × List SC)
  | .year2 =>
    match s with
    | a :: b :: r =>
      if a.isDig && b.isDig then
        some (if num2 a b = some .y2 then { st with year := .y2 } else { st with sure := false }, r)
      else if (a = .ch '+' || a = .ch '-') && b.isDig then some ({ st with sure := false }, r)
      else none
    | _ => none
  | .year4 =>
    match s with
    | a :: b :: c :: d :: r =>
      if a.isDig && b.isDig && c.isDig && d.isDig then
        some (if a = .dg .year 0 ∧ b = .dg .year 1 ∧ c = .dg .year 2 ∧ d = .dg .year 3 then { st with year := .fld .year }
          else { st with sure := false }, r)
      else none
    | _ => none
  | .month =>
    match symGetnum true s with
    | some (x, r) => (store st .month (fun n => decide (1 ≤ n ∧ n ≤ 12)) x (fun v => { st with month := some v })).map (·, r)
    | none => none
  | .day =>
    match symGetnum true s with
    | some (some v, r) => some (if v = .y2 then { st with sure := false } else { st with day := some v }, r)
    | some (none, r) => some ({ st with sure := false }, r)
    | none => none
  | .hour =>
    match symGetnum false s with
    | some (x, r) => (store st .hour (fun n => decide (n < 24)) x (fun v => { st with hour := v })).map (·, r)
    | none => none
  | .min =>
    match symGetnum true s with
    | some (x, r) => (store st .min (fun n => decide (n < 60)) x (fun v => { st with min := v })).map (·, r)
    | none => none
  | .sec =>
    match symGetnum true s with
    | some (x, r) =>
      (store st .sec (fun n => decide (n < 60)) x (fun v => { st with sec := v })).map (fun st' =>
        if symStartsFrac r && !(match next with | some (.frac0 _) => true | some (.frac9 _) => true | _ => false) then
          (setNsec st' (runVal ((r.drop 1).takeWhile SC.isDig)), (r.drop 1).dropWhile SC.isDig)
        else (st', r))
    | none => none
  | .frac0 n =>
    match s with
    | a :: r =>
      if (a = .ch '.' || a = .ch ',') && decide (n ≤ r.length) && (r.take n).all SC.isDig then
        some (setNsec st (runVal (r.take n)), r.drop n)
      else none
    | [] => none
  | .frac9 _ =>
    if symStartsFrac s then some (setNsec st (runVal ((s.drop 1).takeWhile SC.isDig)), (s.drop 1).dropWhile SC.isDig)
    else some (st, s)
  | .tzColon =>
    match s with
    | g :: a :: b :: x :: c :: d :: r => if x = .ch ':' then (symReadOff st g a b c d).map (·, r) else none
    | _ => none
  | .tzIso =>
    match s with
    | g :: r =>
      if g = .ch 'Z' then some ({ st with off := some .zero }, r)
      else
        match r with
        | a :: b :: x :: c :: d :: r => if x = .ch ':' then (symReadOff st g a b c d).map (·, r) else none
        | _ => none
    | _ => none
  | .tz =>
    match s with
    | g :: a :: b :: c :: d :: r => (symReadOff st g a b c d).map (·, r)
    | _ => none
  | .lit c =>
    if c = ' ' then
      match s with
      | [] => some (st, [])
      | x :: r => if x = .ch ' ' then some (st, r.dropWhile (· = .ch ' ')) else none
    else
      match s with
      | [] => none
      | .ch d :: r => if d = c then some (st, r) else none
      | .dg _ _ :: r => if isDigit c then some ({ st with sure := false }, r) else none

/-- A layout, symbolically; `none` is failure. -/
def symToks : List Tok → SF → List SC → Option SF
  | [], st, s => if s = [] then some st else none
  | t :: ts, st, s =>
    match symTok ts.head? st s t with
    | some (st', s') => symToks ts st' s'
    | none => none

/-! ### Agreement with the real run -/

theorem digitChar_val {n : Nat} (h : n < 10) : isDigit (digitChar n) = true ∧ digitVal (digitChar n) = n := by
  have : ∀ n < 10, isDigit (digitChar n) = true ∧ digitVal (digitChar n) = n := by decide
  exact this n h

theorem digitChar_ne {n : Nat} (h : n < 10) {c : Char} (hc : isDigit c = false) : digitChar n ≠ c := by
  intro he
  rw [← he, (digitChar_val h).1] at hc
  cases hc

theorem isDig_conc (e : FEnv) (x : SC) : isDigit (x.conc e) = x.isDig := by
  cases x with
  | ch c => rfl
  | dg f i => exact (digitChar_val (Nat.mod_lt _ (by decide))).1

theorem conc_eq (e : FEnv) (x : SC) {c : Char} (hc : isDigit c = false) : x.conc e = c ↔ x = .ch c := by
  cases x with
  | ch d => simp [SC.conc]
  | dg f i =>
    simp only [SC.conc, reduceCtorEq, iff_false]
    exact digitChar_ne (Nat.mod_lt _ (by decide)) hc

theorem decide_conc (e : FEnv) (x : SC) {c : Char} (hc : isDigit c = false) : decide (x.conc e = c) = decide (x = .ch c) := by
  rw [decide_eq_decide]; exact conc_eq e x hc

theorem dgVal (e : FEnv) (f : Fld) (i : Nat) : digitVal ((SC.dg f i).conc e) = e f / 10 ^ (f.width - 1 - i) % 10 :=
  (digitChar_val (Nat.mod_lt _ (by decide))).2

theorem ok_width2 {e : FEnv} (h : e.Ok) {f : Fld} (hf : f.width = 2) : e f < 100 := by
  cases f with
  | year => simp [Fld.width] at hf
  | month => have := h.month; omega
  | day => exact h.day
  | hour => have := h.hour; omega
  | min => have := h.min; omega
  | sec => have := h.sec; omega
  | oh => have := h.oh; omega
  | om => have := h.om; omega
  | frac k =>
    simp only [Fld.width] at hf
    subst hf
    exact h.frac 2

/-- The value before the pivot of two-digit years. -/
def SV.raw (e : FEnv) : SV → Nat
  | .y2 => e .year % 100
  | v => v.eval e

theorem num2_sound {e : FEnv} (h : e.Ok) {a b : SC} {v : SV} (hn : num2 a b = some v) :
    digitVal (a.conc e) * 10 + digitVal (b.conc e) = v.raw e ∧ ((∃ n, v = .cst n) ∨ (∃ f, v = .fld f) ∨ v = .y2) := by
  unfold num2 at hn
  split at hn
  · cases hn; exact ⟨rfl, Or.inl ⟨_, rfl⟩⟩
  · rename_i f g
    split at hn
    · rename_i hfg
      obtain ⟨rfl, hw⟩ := hfg
      cases hn
      refine ⟨?_, Or.inr (Or.inl ⟨_, rfl⟩)⟩
      have := ok_width2 h hw
      rw [dgVal, dgVal, hw]
      simp only [SV.raw, SV.eval]
      omega
    · cases hn
  · rename_i f g
    split at hn
    · rename_i hfg
      obtain ⟨rfl, rfl⟩ := hfg
      cases hn
      refine ⟨?_, Or.inr (Or.inr rfl)⟩
      rw [dgVal, dgVal]
      simp only [Fld.width, SV.raw]
      omega
    · cases hn
  · cases hn

theorem symGetnum_sound {e : FEnv} (fixed : Bool) (s : List SC) :
    (symGetnum fixed s = none → getnum fixed (s.map (SC.conc e)) = none) ∧
    ∀ x r, symGetnum fixed s = some (x, r) → ∃ n, getnum fixed (s.map (SC.conc e)) = some (n, r.map (SC.conc e)) ∧
      ∀ v, x = some v → e.Ok → n = v.raw e ∧ ((∃ n, v = .cst n) ∨ (∃ f, v = .fld f) ∨ v = .y2) := by
  match s with
  | [] => simp [symGetnum, getnum]
  | [a] =>
    simp only [symGetnum, getnum, List.map_cons, List.map_nil, isDig_conc]
    split
    · simp
    · refine ⟨by simp, ?_⟩
      intro x r hx
      simp only [Option.some.injEq, Prod.mk.injEq] at hx
      obtain ⟨rfl, rfl⟩ := hx
      exact ⟨_, rfl, by simp⟩
  | a :: b :: r =>
    simp only [symGetnum, getnum, List.map_cons, isDig_conc]
    split
    · simp
    · split
      · split
        · simp
        · refine ⟨by simp, ?_⟩
          intro x r' hx
          simp only [Option.some.injEq, Prod.mk.injEq] at hx
          obtain ⟨rfl, rfl⟩ := hx
          exact ⟨_, rfl, by simp⟩
      · refine ⟨by simp, ?_⟩
        intro x r' hx
        simp only [Option.some.injEq, Prod.mk.injEq] at hx
        obtain ⟨rfl, rfl⟩ := hx
        exact ⟨_, rfl, fun v hv he => num2_sound he hv⟩

theorem takeWhile_conc (e : FEnv) (s : List SC) : (s.map (SC.conc e)).takeWhile isDigit = (s.takeWhile SC.isDig).map (SC.conc e) := by
  rw [List.takeWhile_map]
  congr 1
  congr 1
  funext x
  exact isDig_conc e x

theorem dropWhile_conc (e : FEnv) (s : List SC) : (s.map (SC.conc e)).dropWhile isDigit = (s.dropWhile SC.isDig).map (SC.conc e) := by
  rw [List.dropWhile_map]
  congr 1
  congr 1
  funext x
  exact isDig_conc e x

theorem numOf_append (a b : Str) : numOf (a ++ b) = numOf a * 10 ^ b.length + numOf b := by
  unfold numOf
  rw [List.foldl_append]
  have key : ∀ (l : Str) (n : Nat), l.foldl (fun n c => n * 10 + digitVal c) n =
      n * 10 ^ l.length + l.foldl (fun n c => n * 10 + digitVal c) 0 := by
    intro l
    induction l with
    | nil => intro n; simp
    | cons c cs ih =>
      intro n
      simp only [List.foldl_cons, List.length_cons]
      rw [ih, ih (0 * 10 + digitVal c), Nat.pow_succ, Nat.add_mul]
      simp only [Nat.zero_mul, Nat.zero_add]
      rw [Nat.mul_assoc, Nat.mul_comm 10, Nat.add_assoc]
  exact key b _

theorem digitsW_length (w n : Nat) : (digitsW w n).length = w := by
  induction w generalizing n with
  | zero => rfl
  | succ w ih => rw [digitsW, List.length_append, ih]; rfl

theorem numOf_digitsW {w n : Nat} (h : n < 10 ^ w) : numOf (digitsW w n) = n := by
  induction w generalizing n with
  | zero => simp only [Nat.pow_zero, Nat.lt_one_iff] at h; subst h; rfl
  | succ w ih =>
    rw [digitsW, numOf_append, ih (by rw [Nat.pow_succ] at h; omega)]
    have := (digitChar_val (n := n % 10) (Nat.mod_lt _ (by decide))).2
    simp only [List.length_singleton, numOf, List.foldl_cons, List.foldl_nil, this]
    omega

/-- The digits of a field one by one. -/
theorem digitsW_map (w n : Nat) :
    digitsW w n = (List.range w).map (fun i => digitChar (n / 10 ^ (w - 1 - i) % 10)) := by
  induction w generalizing n with
  | zero => rfl
  | succ w ih =>
    rw [digitsW, ih, List.range_succ, List.map_append]
    congr 1
    · apply List.map_congr_left
      intro i hi
      have hi' := List.mem_range.1 hi
      rw [Nat.div_div_eq_div_mul, ← Nat.pow_succ']
      have : w - 1 - i + 1 = w + 1 - 1 - i := by omega
      rw [Nat.succ_eq_add_one, this]
    · simp

theorem fracRun_conc (e : FEnv) (k : Nat) : (fracRun k).map (SC.conc e) = digitsW k (e (.frac k)) := by
  rw [digitsW_map, fracRun, List.map_map]
  rfl

theorem runVal_sound {e : FEnv} (h : e.Ok) {run : List SC} {v : SV} (hv : runVal run = some v) :
    nanos (run.map (SC.conc e)) = v.eval e := by
  unfold runVal at hv
  split at hv
  · rename_i hr
    cases hv
    rw [hr.1, fracRun_conc]
    have hl : (fracRun run.length).length = run.length := by simp [fracRun]
    rw [hl]
    unfold nanos
    rw [List.take_of_length_le (by rw [digitsW_length]; exact hr.2), digitsW_length, numOf_digitsW (h.frac _)]
    rfl
  · cases hv

/-- The state describes the fields. -/
def Desc (e : FEnv) (st : SF) (f : Fields) : Prop := st.sure = true → f = st.eval e

/-- A symbolic step describes a real step. -/
def Sound (e : FEnv) (r : Option (Fields × Str)) : Option (SF × List SC) → Prop
  | none => r = none
  | some (st, s) => (st.sure = false ∧ r = none) ∨ ∃ f, r = some (f, s.map (SC.conc e)) ∧ Desc e st f

theorem startsFrac_conc (e : FEnv) (s : List SC) : startsFrac (s.map (SC.conc e)) = symStartsFrac s := by
  match s with
  | [] => rfl
  | [_] => rfl
  | a :: b :: r =>
    simp only [List.map_cons, startsFrac, symStartsFrac, isDig_conc]
    rw [decide_conc e a (by decide), decide_conc e a (by decide)]

theorem store_sound {e : FEnv} {st : SF} {f : Fld} {p : Nat → Bool} {x : Option SV} {set : SV → SF} {n : Nat}
    (hf : p (e f) = true) (hx : ∀ v, x = some v → n = v.raw e ∧ ((∃ n, v = .cst n) ∨ (∃ f, v = .fld f) ∨ v = .y2)) :
    (store st f p x set = none → p n = false) ∧
    ∀ st', store st f p x set = some st' → st' = { st with sure := false } ∨ ∃ v, x = some v ∧ p n = true ∧ st' = set v ∧ n = v.eval e := by
  unfold store
  match x, hx with
  | none, _ => simp [inRange]
  | some (.cst m), hx =>
    have h1 := (hx _ rfl).1
    simp only [SV.raw, SV.eval] at h1
    subst h1
    simp only [inRange]
    cases hp : p n <;> simp [SV.eval]
  | some (.fld g), hx =>
    have h1 := (hx _ rfl).1
    simp only [SV.raw, SV.eval] at h1
    simp only [inRange]
    by_cases hg : f = g
    · subst hg; rw [h1]; simp [hf, SV.eval]
    · simp [hg]
  | some .y2, _ => simp [inRange]
  | some (.nano k), _ => simp [inRange]

theorem readOff_sound {e : FEnv} (h : e.Ok) {st : SF} {f : Fields} (hd : Desc e st f) (g a b c d : SC) :
    match symReadOff st g a b c d with
    | none => readOff f (g.conc e) (a.conc e) (b.conc e) (c.conc e) (d.conc e) = none
    | some st' => (st'.sure = false ∧ readOff f (g.conc e) (a.conc e) (b.conc e) (c.conc e) (d.conc e) = none) ∨
      ∃ f', readOff f (g.conc e) (a.conc e) (b.conc e) (c.conc e) (d.conc e) = some f' ∧ Desc e st' f' := by
  have hplus := conc_eq e g (c := '+') (by decide)
  have hminus := conc_eq e g (c := '-') (by decide)
  unfold symReadOff readOff
  simp only [getnum, isDig_conc]
  cases ha : a.isDig <;> cases hb : b.isDig <;> cases hc : c.isDig <;> cases hdd : d.isDig <;> try simp; done
  simp only [Bool.and_self, if_true, Bool.not_true, Bool.false_eq_true, if_false]
  by_cases hs : g = .ch '+' ∨ g = .ch '-'
  · rw [if_pos hs]
    by_cases hfld : a = .dg .oh 0 ∧ b = .dg .oh 1 ∧ c = .dg .om 0 ∧ d = .dg .om 1
    · rw [if_pos hfld]
      obtain ⟨rfl, rfl, rfl, rfl⟩ := hfld
      right
      have h1 : digitVal ((SC.dg .oh 0).conc e) * 10 + digitVal ((SC.dg .oh 1).conc e) = e .oh := by
        have := h.oh
        rw [dgVal, dgVal]; simp only [Fld.width]; omega
      have h2 : digitVal ((SC.dg .om 0).conc e) * 10 + digitVal ((SC.dg .om 1).conc e) = e .om := by
        have := h.om
        rw [dgVal, dgVal]; simp only [Fld.width]; omega
      rw [h1, h2]
      have h3 := h.oh
      have h4 := h.om
      rw [if_neg (by omega)]
      rcases hs with rfl | rfl
      · refine ⟨_, if_pos rfl, ?_⟩
        intro hsure
        rw [hd hsure]; rfl
      · refine ⟨_, (if_neg (by simp [SC.conc])).trans (if_pos rfl), ?_⟩
        intro hsure
        rw [hd hsure]; rfl
    · rw [if_neg hfld]
      simp only [true_and]
      by_cases hr : readOff f (g.conc e) (a.conc e) (b.conc e) (c.conc e) (d.conc e) = none
      · left
        unfold readOff at hr
        simp only [getnum, isDig_conc, ha, hb, hc, hdd, Bool.not_true, Bool.false_eq_true, if_false] at hr
        exact hr
      · right
        obtain ⟨f', hf'⟩ := Option.ne_none_iff_exists'.1 hr
        unfold readOff at hf'
        simp only [getnum, isDig_conc, ha, hb, hc, hdd, Bool.not_true, Bool.false_eq_true, if_false] at hf'
        exact ⟨f', hf', by intro h; cases h⟩
  · rw [if_neg hs]
    simp only [not_or] at hs
    simp only
    split
    · rfl
    · rw [if_neg (mt hplus.1 hs.1), if_neg (mt hminus.1 hs.2)]

theorem setNsec_desc {e : FEnv} (h : e.Ok) {st : SF} {f : Fields} (hd : Desc e st f) (run : List SC) :
    Desc e (setNsec st (runVal run)) { f with nsec := nanos (run.map (SC.conc e)) } := by
  cases hv : runVal run with
  | none => intro hs; simp [setNsec] at hs
  | some v =>
    intro hs
    rw [setNsec] at hs ⊢
    rw [hd hs, runVal_sound h hv]; rfl

theorem symTok_sound {e : FEnv} (h : e.Ok) {st : SF} {f : Fields} (hd : Desc e st f) (next : Option Tok) (s : List SC) (t : Tok) :
    Sound e (parseTok next f (s.map (SC.conc e)) t) (symTok next st s t) := by
  have unsure : ∀ {r : Option (Fields × Str)} {st' : SF} {s' : List SC}, st'.sure = false →
      (r = none ∨ ∃ f, r = some (f, s'.map (SC.conc e))) → Sound e r (some (st', s')) := by
    intro r st' s' hu hr
    rcases hr with hr | ⟨f, hr⟩
    · exact Or.inl ⟨hu, hr⟩
    · exact Or.inr ⟨f, hr, by intro hs; rw [hu] at hs; cases hs⟩
  cases t with
  | year2 =>
    match s with
    | [] => rfl
    | [_] => rfl
    | a :: b :: r =>
      simp only [parseTok, symTok, List.map_cons, isDig_conc, decide_conc e a (c := '+') (by decide),
        decide_conc e a (c := '-') (by decide)]
      cases hab : a.isDig && b.isDig with
      | true =>
        simp only [if_true]
        by_cases hn : num2 a b = some .y2
        · rw [if_pos hn]
          refine Or.inr ⟨_, rfl, ?_⟩
          intro hs
          have := (num2_sound h hn).1
          rw [hd hs, this]
          simp only [SF.eval, SV.eval, SV.raw]
          congr 1
          split <;> simp <;> omega
        · rw [if_neg hn]
          exact unsure rfl (Or.inr ⟨_, rfl⟩)
      | false =>
        simp only [Bool.false_eq_true, if_false]
        cases hpm : (decide (a = SC.ch '+') || decide (a = SC.ch '-')) && b.isDig with
        | true =>
          simp only [if_true]
          exact unsure rfl (Or.inr ⟨_, rfl⟩)
        | false => simp only [Bool.false_eq_true, if_false]; rfl
  | year4 =>
    match s with
    | [] => rfl
    | [_] => rfl
    | [_, _] => rfl
    | [_, _, _] => rfl
    | a :: b :: c :: d :: r =>
      simp only [parseTok, symTok, List.map_cons, isDig_conc]
      cases hab : a.isDig && b.isDig && c.isDig && d.isDig with
      | true =>
        simp only [if_true]
        by_cases hn : a = .dg .year 0 ∧ b = .dg .year 1 ∧ c = .dg .year 2 ∧ d = .dg .year 3
        · rw [if_pos hn]
          obtain ⟨rfl, rfl, rfl, rfl⟩ := hn
          refine Or.inr ⟨_, rfl, ?_⟩
          intro hs
          have hy := h.year
          have : numOf [(SC.dg .year 0).conc e, (SC.dg .year 1).conc e, (SC.dg .year 2).conc e, (SC.dg .year 3).conc e] = e .year := by
            simp only [numOf, List.foldl_cons, List.foldl_nil, dgVal, Fld.width]
            omega
          rw [hd hs, this]; rfl
        · rw [if_neg hn]
          exact unsure rfl (Or.inr ⟨_, rfl⟩)
      | false => simp only [Bool.false_eq_true, if_false]; rfl
  | month =>
    obtain ⟨g1, g2⟩ := symGetnum_sound (e := e) true s
    simp only [parseTok, symTok]
    cases hg : symGetnum true s with
    | none => rw [g1 hg]; rfl
    | some xr =>
      obtain ⟨x, r⟩ := xr
      obtain ⟨n, h1, h2⟩ := g2 x r hg
      rw [h1]
      simp only
      obtain ⟨s1, s2⟩ := store_sound (e := e) (st := st) (f := .month) (p := fun n => decide (1 ≤ n ∧ n ≤ 12)) (x := x)
        (set := fun v => { st with month := some v }) (n := n) (by simpa using h.month) (fun v hv => h2 v hv h)
      cases hst : store st .month (fun n => decide (1 ≤ n ∧ n ≤ 12)) x (fun v => { st with month := some v }) with
      | none =>
        have := s1 hst
        simp only [decide_eq_false_iff_not] at this
        rw [if_neg this]; rfl
      | some st' =>
        rcases s2 st' hst with hst' | ⟨v, hv, hp, hst', hn⟩ <;> subst hst'
        · refine unsure rfl ?_
          by_cases hc : 1 ≤ n ∧ n ≤ 12
          · rw [if_pos hc]; exact Or.inr ⟨_, rfl⟩
          · rw [if_neg hc]; exact Or.inl rfl
        · simp only [decide_eq_true_eq] at hp
          rw [if_pos hp]
          refine Or.inr ⟨_, rfl, ?_⟩
          intro hs
          rw [hd hs, hn]; rfl
  | day =>
    obtain ⟨g1, g2⟩ := symGetnum_sound (e := e) true s
    simp only [parseTok, symTok]
    cases hg : symGetnum true s with
    | none => rw [g1 hg]; rfl
    | some xr =>
      obtain ⟨x, r⟩ := xr
      obtain ⟨n, h1, h2⟩ := g2 x r hg
      rw [h1]
      cases x with
      | none => exact unsure rfl (Or.inr ⟨_, rfl⟩)
      | some v =>
        have h3 := h2 v rfl h
        rcases h3 with ⟨h3, ⟨m, rfl⟩ | ⟨g, rfl⟩ | rfl⟩
        · refine Or.inr ⟨_, rfl, ?_⟩
          intro hs; rw [hd hs, h3]; rfl
        · refine Or.inr ⟨_, rfl, ?_⟩
          intro hs; rw [hd hs, h3]; rfl
        · exact unsure rfl (Or.inr ⟨_, rfl⟩)
  | hour =>
    obtain ⟨g1, g2⟩ := symGetnum_sound (e := e) false s
    simp only [parseTok, symTok]
    cases hg : symGetnum false s with
    | none => rw [g1 hg]; rfl
    | some xr =>
      obtain ⟨x, r⟩ := xr
      obtain ⟨n, h1, h2⟩ := g2 x r hg
      rw [h1]
      simp only
      obtain ⟨s1, s2⟩ := store_sound (e := e) (st := st) (f := .hour) (p := fun n => decide (n < 24)) (x := x)
        (set := fun v => { st with hour := v }) (n := n) (by simpa using h.hour) (fun v hv => h2 v hv h)
      cases hst : store st .hour (fun n => decide (n < 24)) x (fun v => { st with hour := v }) with
      | none =>
        have := s1 hst
        simp only [decide_eq_false_iff_not] at this
        rw [if_neg this]; rfl
      | some st' =>
        rcases s2 st' hst with hst' | ⟨v, hv, hp, hst', hn⟩ <;> subst hst'
        · refine unsure rfl ?_
          by_cases hc : n < 24
          · rw [if_pos hc]; exact Or.inr ⟨_, rfl⟩
          · rw [if_neg hc]; exact Or.inl rfl
        · simp only [decide_eq_true_eq] at hp
          rw [if_pos hp]
          refine Or.inr ⟨_, rfl, ?_⟩
          intro hs
          rw [hd hs, hn]; rfl
  | min =>
    obtain ⟨g1, g2⟩ := symGetnum_sound (e := e) true s
    simp only [parseTok, symTok]
    cases hg : symGetnum true s with
    | none => rw [g1 hg]; rfl
    | some xr =>
      obtain ⟨x, r⟩ := xr
      obtain ⟨n, h1, h2⟩ := g2 x r hg
      rw [h1]
      simp only
      obtain ⟨s1, s2⟩ := store_sound (e := e) (st := st) (f := .min) (p := fun n => decide (n < 60)) (x := x)
        (set := fun v => { st with min := v }) (n := n) (by simpa using h.min) (fun v hv => h2 v hv h)
      cases hst : store st .min (fun n => decide (n < 60)) x (fun v => { st with min := v }) with
      | none =>
        have := s1 hst
        simp only [decide_eq_false_iff_not] at this
        rw [if_neg this]; rfl
      | some st' =>
        rcases s2 st' hst with hst' | ⟨v, hv, hp, hst', hn⟩ <;> subst hst'
        · refine unsure rfl ?_
          by_cases hc : n < 60
          · rw [if_pos hc]; exact Or.inr ⟨_, rfl⟩
          · rw [if_neg hc]; exact Or.inl rfl
        · simp only [decide_eq_true_eq] at hp
          rw [if_pos hp]
          refine Or.inr ⟨_, rfl, ?_⟩
          intro hs
          rw [hd hs, hn]; rfl
  | sec =>
    obtain ⟨g1, g2⟩ := symGetnum_sound (e := e) true s
    simp only [parseTok, symTok]
    cases hg : symGetnum true s with
    | none => rw [g1 hg]; rfl
    | some xr =>
      obtain ⟨x, r⟩ := xr
      obtain ⟨n, h1, h2⟩ := g2 x r hg
      rw [h1]
      simp only [startsFrac_conc]
      generalize hb : (symStartsFrac r && !(match next with | some (.frac0 _) => true | some (.frac9 _) => true | _ => false)) = bb
      obtain ⟨s1, s2⟩ := store_sound (e := e) (st := st) (f := .sec) (p := fun n => decide (n < 60)) (x := x)
        (set := fun v => { st with sec := v }) (n := n) (by simpa using h.sec) (fun v hv => h2 v hv h)
      have hread : ∀ g : Fields, readFrac (r.map (SC.conc e)) =
          (nanos ((((r.drop 1).takeWhile SC.isDig)).map (SC.conc e)), ((r.drop 1).dropWhile SC.isDig).map (SC.conc e)) := by
        intro _
        unfold readFrac
        rw [← List.map_drop, takeWhile_conc, dropWhile_conc]
      cases hst : store st .sec (fun n => decide (n < 60)) x (fun v => { st with sec := v }) with
      | none =>
        have := s1 hst
        simp only [decide_eq_false_iff_not] at this
        rw [if_neg this]; rfl
      | some st' =>
        simp only [Option.map_some]
        rcases s2 st' hst with hst' | ⟨v, hv, hp, hst', hn⟩ <;> subst hst'
        · by_cases hc : n < 60
          · rw [if_pos hc]
            cases bb with
            | true =>
              simp only [if_true]
              refine unsure ?_ (Or.inr ⟨_, by rw [hread {}]⟩)
              cases runVal _ <;> rfl
            | false => exact unsure rfl (Or.inr ⟨_, rfl⟩)
          · rw [if_neg hc]
            cases bb with
            | true =>
              simp only [if_true]
              refine unsure ?_ (Or.inl rfl)
              cases runVal _ <;> rfl
            | false => exact unsure rfl (Or.inl rfl)
        · simp only [decide_eq_true_eq] at hp
          rw [if_pos hp]
          have hd2 : Desc e { st with sec := v } { f with sec := n } := by
            intro hs
            rw [hd hs, hn]; rfl
          cases bb with
          | true =>
            simp only [if_true]
            refine Or.inr ⟨_, by rw [hread {}], ?_⟩
            exact setNsec_desc h hd2 _
          | false => exact Or.inr ⟨_, rfl, hd2⟩
  | frac0 n =>
    match s with
    | [] => rfl
    | a :: r =>
      simp only [parseTok, symTok, List.map_cons, decide_conc e a (c := '.') (by decide), decide_conc e a (c := ',') (by decide),
        List.length_map, ← List.map_take, List.all_map]
      have : (isDigit ∘ SC.conc e) = SC.isDig := by funext x; exact isDig_conc e x
      rw [this]
      split
      · refine Or.inr ⟨_, by rw [← List.map_drop], ?_⟩
        exact setNsec_desc h hd _
      · rfl
  | frac9 n =>
    simp only [parseTok, symTok, startsFrac_conc]
    split
    · refine Or.inr ⟨_, by rw [readFrac, ← List.map_drop, takeWhile_conc, dropWhile_conc], ?_⟩
      exact setNsec_desc h hd _
    · exact Or.inr ⟨_, rfl, hd⟩
  | tzColon =>
    match s with
    | [] => rfl
    | [_] => rfl
    | [_, _] => rfl
    | [_, _, _] => rfl
    | [_, _, _, _] => rfl
    | [_, _, _, _, _] => rfl
    | g :: a :: b :: x :: c :: d :: r =>
      simp only [parseTok, symTok, List.map_cons]
      by_cases hx : x = .ch ':'
      · rw [if_pos hx, if_pos ((conc_eq e x (by decide)).2 hx)]
        have := readOff_sound h hd g a b c d
        cases ho : symReadOff st g a b c d with
        | none => rw [ho] at this; simp only at this; rw [this]; rfl
        | some st' =>
          rw [ho] at this
          rcases this with ⟨u1, u2⟩ | ⟨f', u1, u2⟩
          · rw [u2]; exact Or.inl ⟨u1, rfl⟩
          · rw [u1]; exact Or.inr ⟨_, rfl, u2⟩
      · rw [if_neg hx, if_neg (mt (conc_eq e x (by decide)).1 hx)]; rfl
  | tzIso =>
    match s with
    | [] => rfl
    | g :: r =>
      by_cases hz : g = .ch 'Z'
      · subst hz
        refine Or.inr ⟨{ f with off := some 0 }, rfl, ?_⟩
        intro hs
        have := hd hs
        rw [this]; rfl
      · have hz' : g.conc e ≠ 'Z' := mt (conc_eq e g (by decide)).1 hz
        simp only [symTok, if_neg hz]
        match r with
        | [] => simp [parseTok, Sound, hz']
        | [_] => simp [parseTok, Sound, hz']
        | [_, _] => simp [parseTok, Sound, hz']
        | [_, _, _] => simp [parseTok, Sound, hz']
        | [_, _, _, _] => simp [parseTok, Sound, hz']
        | a :: b :: x :: c :: d :: r =>
          simp only [parseTok, List.map_cons]
          by_cases hx : x = .ch ':'
          · rw [if_pos hx, if_pos ((conc_eq e x (by decide)).2 hx)]
            have := readOff_sound h hd g a b c d
            cases ho : symReadOff st g a b c d with
            | none => rw [ho] at this; simp only at this; rw [this]; rfl
            | some st' =>
              rw [ho] at this
              rcases this with ⟨u1, u2⟩ | ⟨f', u1, u2⟩
              · rw [u2]; exact Or.inl ⟨u1, rfl⟩
              · rw [u1]; exact Or.inr ⟨_, rfl, u2⟩
          · rw [if_neg hx, if_neg (mt (conc_eq e x (by decide)).1 hx)]; rfl
  | tz =>
    match s with
    | [] => rfl
    | [_] => rfl
    | [_, _] => rfl
    | [_, _, _] => rfl
    | [_, _, _, _] => rfl
    | g :: a :: b :: c :: d :: r =>
      simp only [parseTok, symTok, List.map_cons]
      have := readOff_sound h hd g a b c d
      cases ho : symReadOff st g a b c d with
      | none => rw [ho] at this; simp only at this; rw [this]; rfl
      | some st' =>
        rw [ho] at this
        rcases this with ⟨u1, u2⟩ | ⟨f', u1, u2⟩
        · rw [u2]; exact Or.inl ⟨u1, rfl⟩
        · rw [u1]; exact Or.inr ⟨_, rfl, u2⟩
  | lit c =>
    simp only [parseTok, symTok]
    by_cases hc : c = ' '
    · rw [if_pos hc, if_pos hc]
      match s with
      | [] => exact Or.inr ⟨_, rfl, hd⟩
      | x :: r =>
        simp only [List.map_cons]
        by_cases hx : x = .ch ' '
        · rw [if_pos hx, if_pos ((conc_eq e x (by decide)).2 hx)]
          refine Or.inr ⟨_, ?_, hd⟩
          rw [List.dropWhile_map]
          congr 4
          funext y
          exact decide_conc e y (by decide)
        · rw [if_neg hx, if_neg (mt (conc_eq e x (by decide)).1 hx)]; rfl
    · rw [if_neg hc, if_neg hc]
      match s with
      | [] => rfl
      | .ch d :: r =>
        simp only [List.map_cons, SC.conc]
        by_cases hx : d = c
        · rw [if_pos hx, if_pos hx]; exact Or.inr ⟨_, rfl, hd⟩
        · rw [if_neg hx, if_neg hx]; rfl
      | .dg g i :: r =>
        simp only [List.map_cons]
        by_cases hx : isDigit c = true
        · rw [if_pos hx]
          refine unsure rfl ?_
          by_cases hy : (SC.dg g i).conc e = c
          · rw [if_pos hy]; exact Or.inr ⟨_, rfl⟩
          · rw [if_neg hy]; exact Or.inl rfl
        · rw [if_neg hx, if_neg]
          · rfl
          · rw [conc_eq e _ (by simpa using hx)]; simp

theorem store_unsure {st : SF} {f : Fld} {p : Nat → Bool} {x : Option SV} {set : SV → SF} (hs : ∀ v, (set v).sure = st.sure)
    (h : st.sure = false) {st' : SF} (hst : store st f p x set = some st') : st'.sure = false := by
  unfold store at hst
  split at hst
  · cases hst; rw [hs]; exact h
  · cases hst
  · cases hst; rfl

theorem setNsec_unsure {st : SF} (h : st.sure = false) (x : Option SV) : (setNsec st x).sure = false := by
  cases x with
  | none => rfl
  | some v => exact h

theorem readOff_unsure {st : SF} (h : st.sure = false) {g a b c d : SC} {st' : SF} (ho : symReadOff st g a b c d = some st') :
    st'.sure = false := by
  unfold symReadOff at ho
  split at ho
  · split at ho
    · split at ho <;> cases ho
      · exact h
      · rfl
    · cases ho
  · cases ho

/-- What is not known stays unknown. -/
theorem symTok_unsure {st : SF} (h : st.sure = false) {next : Option Tok} {s : List SC} {t : Tok} {st' : SF} {s' : List SC}
    (ht : symTok next st s t = some (st', s')) : st'.sure = false := by
  cases t with
  | year2 =>
    simp only [symTok] at ht
    split at ht
    · split at ht
      · split at ht <;> cases ht
        · exact h
        · rfl
      · split at ht <;> cases ht
        rfl
    · cases ht
  | year4 =>
    simp only [symTok] at ht
    split at ht
    · split at ht
      · split at ht <;> cases ht
        · exact h
        · rfl
      · cases ht
    · cases ht
  | month =>
    simp only [symTok] at ht
    split at ht
    · obtain ⟨x, h1, h2⟩ := Option.map_eq_some_iff.1 ht
      cases h2
      exact store_unsure (by intro v; rfl) h h1
    · cases ht
  | day =>
    simp only [symTok] at ht
    split at ht
    · split at ht <;> cases ht
      · rfl
      · exact h
    · cases ht; rfl
    · cases ht
  | hour =>
    simp only [symTok] at ht
    split at ht
    · obtain ⟨x, h1, h2⟩ := Option.map_eq_some_iff.1 ht
      cases h2
      exact store_unsure (by intro v; rfl) h h1
    · cases ht
  | min =>
    simp only [symTok] at ht
    split at ht
    · obtain ⟨x, h1, h2⟩ := Option.map_eq_some_iff.1 ht
      cases h2
      exact store_unsure (by intro v; rfl) h h1
    · cases ht
  | sec =>
    simp only [symTok] at ht
    split at ht
    · obtain ⟨x, h1, h2⟩ := Option.map_eq_some_iff.1 ht
      have := store_unsure (by intro v; rfl) h h1
      revert h2
      generalize (symStartsFrac _ && !_) = bb
      intro h2
      cases bb <;> cases h2
      · exact this
      · exact setNsec_unsure this _
    · cases ht
  | frac0 n =>
    simp only [symTok] at ht
    split at ht
    · split at ht <;> cases ht
      exact setNsec_unsure h _
    · cases ht
  | frac9 n =>
    simp only [symTok] at ht
    split at ht <;> cases ht
    · exact setNsec_unsure h _
    · exact h
  | tzColon =>
    simp only [symTok] at ht
    split at ht
    · split at ht
      · obtain ⟨x, h1, h2⟩ := Option.map_eq_some_iff.1 ht
        cases h2
        exact readOff_unsure h h1
      · cases ht
    · cases ht
  | tzIso =>
    simp only [symTok] at ht
    split at ht
    · split at ht
      · cases ht; exact h
      · split at ht
        · split at ht
          · obtain ⟨x, h1, h2⟩ := Option.map_eq_some_iff.1 ht
            cases h2
            exact readOff_unsure h h1
          · cases ht
        · cases ht
    · cases ht
  | tz =>
    simp only [symTok] at ht
    split at ht
    · obtain ⟨x, h1, h2⟩ := Option.map_eq_some_iff.1 ht
      cases h2
      exact readOff_unsure h h1
    · cases ht
  | lit c =>
    simp only [symTok] at ht
    split at ht
    · split at ht
      · cases ht; exact h
      · split at ht <;> cases ht
        exact h
    · split at ht
      · cases ht
      · split at ht <;> cases ht
        exact h
      · split at ht <;> cases ht
        rfl

theorem symToks_unsure (ts : List Tok) {st : SF} (h : st.sure = false) {s : List SC} {st' : SF}
    (ht : symToks ts st s = some st') : st'.sure = false := by
  induction ts generalizing st s with
  | nil =>
    simp only [symToks] at ht
    split at ht <;> cases ht
    exact h
  | cons t ts ih =>
    simp only [symToks] at ht
    split at ht
    · rename_i h1
      exact ih (symTok_unsure h h1) ht
    · cases ht

/-- The symbolic run describes the real run. -/
theorem symToks_sound {e : FEnv} (h : e.Ok) (ts : List Tok) {st : SF} {f : Fields} (hd : Desc e st f) (s : List SC) :
    match symToks ts st s with
    | none => parseToks ts f (s.map (SC.conc e)) = none
    | some st' => st'.sure = true → parseToks ts f (s.map (SC.conc e)) = some (st'.eval e) := by
  induction ts generalizing st f s with
  | nil =>
    simp only [symToks, parseToks]
    by_cases hs : s = []
    · subst hs
      simp only [List.map_nil, if_true]
      intro hs; rw [hd hs]
    · rw [if_neg hs]
      simp [hs]
  | cons t ts ih =>
    have hs := symTok_sound h hd ts.head? s t
    rw [symToks, parseToks]
    cases h1 : symTok ts.head? st s t with
    | none =>
      rw [h1] at hs
      simp only [Sound] at hs
      simp only [hs]
    | some x =>
      obtain ⟨st', s'⟩ := x
      rw [h1] at hs
      simp only [Sound] at hs
      simp only
      rcases hs with ⟨u1, u2⟩ | ⟨f', u1, u2⟩
      · rw [u2]
        cases h2 : symToks ts st' s' with
        | none => rfl
        | some st2 =>
          intro hsure
          rw [symToks_unsure ts u1 h2] at hsure; cases hsure
      · rw [u1]
        exact ih u2 s'

end Xmp.Props
