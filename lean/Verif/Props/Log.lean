import Verif.Model.Log
import Mathlib.Data.List.Induction

/-! C87: log messages. -/

namespace Xmp.Props

open GoStr Log

/-! ### Specification -/

/-- The level after some calls: the last one that was set, and warning if none was. -/
def logThreshold (cs : List Call) : Int :=
  ((cs.filterMap fun c => match c with | .setLevel l => some l | _ => none).getLast?).getD 3

/-- A piece of a format: text, or the place of an argument. -/
inductive LogPiece where
  | text (s : Str)
  | arg

/-- The format with these pieces. -/
def logFormat : List LogPiece → Str
  | [] => []
  | .text s :: ps => s ++ logFormat ps
  | .arg :: ps => '%' :: 's' :: logFormat ps

/-- The message: pieces with arguments in their places. -/
def logMessage : List LogPiece → List Str → Str
  | [], _ => []
  | .text s :: ps, args => s ++ logMessage ps args
  | .arg :: ps, a :: args => a ++ logMessage ps args
  | .arg :: ps, [] => logMessage ps []

/-- The number of places. -/
def logPlaces : List LogPiece → Nat
  | [] => 0
  | .text _ :: ps => logPlaces ps
  | .arg :: ps => logPlaces ps + 1

/-- The words of the levels. -/
def levelWord : Level → Str
  | .debug => "Debug:".toList
  | .info => "Info:".toList
  | .warning => "Warn:".toList
  | .error => "Error:".toList

/-! ### Lemmas -/

theorem sprintf_plain (c : Char) (hc : c ≠ '%') (rest : Str) (args : List Str) :
    sprintf (c :: rest) args = (sprintf rest args).map (c :: ·) := by
  rw [sprintf.eq_def]
  split
  · contradiction
  · rename_i h; cases h; exact absurd rfl hc
  · rename_i h; cases h; exact absurd rfl hc
  · rename_i h; cases h; rfl

theorem sprintf_text (s : Str) (hs : '%' ∉ s) (rest : Str) (args : List Str) :
    sprintf (s ++ rest) args = (sprintf rest args).map (s ++ ·) := by
  induction s with
  | nil => simp
  | cons c s ih =>
    rw [List.cons_append, sprintf_plain c (fun e => hs (by simp [e])), ih (fun h => hs (List.mem_cons_of_mem _ h))]
    cases sprintf rest args <;> rfl

theorem sprintf_arg (rest : Str) (a : Str) (args : List Str) :
    sprintf ('%' :: 's' :: rest) (a :: args) = (sprintf rest args).map (a ++ ·) := by
  rw [sprintf]; rfl

theorem sprintf_pieces (ps : List LogPiece) (hp : ∀ s, LogPiece.text s ∈ ps → '%' ∉ s) (args : List Str)
    (hn : args.length = logPlaces ps) (t : Str) (ht : '%' ∉ t) :
    sprintf (logFormat ps ++ t) args = some (logMessage ps args ++ t) := by
  induction ps generalizing args with
  | nil =>
    obtain rfl : args = [] := List.length_eq_zero_iff.1 hn
    have := sprintf_text t ht [] []
    simp only [List.append_nil] at this
    simp [logFormat, logMessage, this, sprintf, extraText]
  | cons p ps ih =>
    have hp' : ∀ s, LogPiece.text s ∈ ps → '%' ∉ s := fun s h => hp s (List.mem_cons_of_mem _ h)
    cases p with
    | text s =>
      rw [logFormat, List.append_assoc, sprintf_text s (hp s (by simp)), ih hp' args hn]
      simp [logMessage]
    | arg =>
      cases args with
      | nil => simp [logPlaces] at hn
      | cons a args =>
        rw [logFormat, List.cons_append, List.cons_append, sprintf_arg, ih hp' args (by simpa [logPlaces] using hn)]
        simp [logMessage]

theorem levelPrefix_word (l : Level) : levelPrefix l.num = levelWord l := by cases l <;> decide

theorem run_snoc (cs : List Call) (c : Call) : run (cs ++ [c]) = step (run cs) c := by simp [run]

theorem run_level (cs : List Call) : (run cs).level = logThreshold cs := by
  induction cs using List.reverseRecOn with
  | nil => rfl
  | append_singleton cs c ih =>
    rw [run_snoc]
    cases c with
    | setLevel l => simp [step, logThreshold]
    | plain lvl v => simp only [step]; split <;> simpa [logThreshold] using ih
    | format lvl s v => simp only [step]; split <;> simpa [logThreshold] using ih

/-! ### Theorems -/

/-- **C87.** A message is logged exactly if its level is not below the one that was set last; all that was logged before stays, and
setting the level logs nothing. -/
theorem log_shown (cs : List Call) (lvl : Level) (s : Str) (v : List Str) (l : Int) :
    (run (cs ++ [.format lvl s v])).lines = (run cs).lines ++ (if logThreshold cs ≤ lvl.num then [outputf lvl s v] else []) ∧
      (run (cs ++ [.plain lvl v])).lines = (run cs).lines ++ (if logThreshold cs ≤ lvl.num then [output lvl v] else []) ∧
      (run (cs ++ [.setLevel l])).lines = (run cs).lines := by
  rw [run_snoc, run_snoc, run_snoc, ← run_level]
  refine ⟨?_, ?_, rfl⟩ <;>
  · simp only [step]
    by_cases h : (run cs).level ≤ lvl.num
    · rw [if_pos h, if_neg (by omega)]
    · rw [if_neg h, if_pos (by omega)]; simp

example : (run [.format .info "a".toList [], .setLevel 1, .format .info "b".toList []]).lines = [some "Info: b\n".toList] := by
  have := (log_shown [.format .info "a".toList [], .setLevel 1] .info "b".toList [] 0).1
  exact this.trans (by decide)

/-- **C87.** Before a level is set, warnings and errors are logged and nothing else. -/
theorem log_default (cs : List Call) (h : ∀ c ∈ cs, ∀ l, c ≠ .setLevel l) (lvl : Level) : logThreshold cs ≤ lvl.num ↔ lvl = .warning ∨ lvl = .error := by
  have e : logThreshold cs = 3 := by
    have : (cs.filterMap fun c => match c with | .setLevel l => some l | _ => none) = ([] : List Int) := by
      rw [List.filterMap_eq_nil_iff]
      intro c hc
      cases c with
      | setLevel l => exact absurd rfl (h _ hc l)
      | plain _ _ => rfl
      | format _ _ _ => rfl
    rw [logThreshold, this]; rfl
  rw [e]
  cases lvl <;> decide

/-- **C87.** A formatted message is logged as the word of its level, a space, and the text with the arguments in their places, and
ends with a line feed. -/
theorem log_formatted (lvl : Level) (ps : List LogPiece) (hp : ∀ s, LogPiece.text s ∈ ps → '%' ∉ s) (args : List Str)
    (hn : args.length = logPlaces ps) (hl : ¬ hasSuffix (logFormat ps) "\n".toList = true) :
    outputf lvl (logFormat ps) args = some (levelWord lvl ++ " ".toList ++ logMessage ps args ++ "\n".toList) := by
  have hl' : ¬ hasSuffix ("%s ".toList ++ logFormat ps) "\n".toList = true := by
    intro h
    apply hl
    simp only [hasSuffix, List.isSuffixOf_iff_suffix] at h ⊢
    obtain ⟨t, e⟩ := h
    rcases List.eq_nil_or_concat (logFormat ps) with h0 | ⟨q, c, h0⟩
    · rw [h0] at e
      have := congrArg List.getLast? e
      simp at this
    · rw [h0] at e ⊢
      rw [List.concat_eq_append, ← List.append_assoc] at e
      have := congrArg List.getLast? e
      rw [List.getLast?_append, List.getLast?_append] at this
      simp at this
      exact ⟨q, by simpa using this⟩
  unfold outputf defaultLogger
  have key : sprintf ("%s ".toList ++ logFormat ps ++ "\n".toList) (levelPrefix lvl.num :: args) =
      some (levelWord lvl ++ " ".toList ++ logMessage ps args ++ "\n".toList) := by
    have := sprintf_pieces (.arg :: .text " ".toList :: ps) (by
      intro s hs
      simp only [List.mem_cons, reduceCtorEq, LogPiece.text.injEq, false_or] at hs
      rcases hs with rfl | hs
      · decide
      · exact hp s hs) (levelPrefix lvl.num :: args) (by simp [logPlaces, hn]) "\n".toList (by decide)
    rw [levelPrefix_word] at this ⊢
    simpa [logFormat, logMessage] using this
  simp only [if_neg hl', key, Option.map_some]
  rw [if_pos (by rw [hasSuffix, List.isSuffixOf_iff_suffix]; exact List.suffix_append _ _)]

example : outputf .warning "bad %s in %s".toList ["a".toList, "b".toList] = some "Warn: bad a in b\n".toList :=
  log_formatted .warning [.text "bad ".toList, .arg, .text " in ".toList, .arg] (by
    intro s hs
    simp only [List.mem_cons, LogPiece.text.injEq, reduceCtorEq, List.not_mem_nil, or_false, false_or] at hs
    rcases hs with rfl | rfl <;> decide) ["a".toList, "b".toList] rfl (by decide)

/-- **C87.** If the format itself ends with a line feed, no second one is added. -/
theorem log_formatted_line (lvl : Level) (ps : List LogPiece) (hp : ∀ s, LogPiece.text s ∈ ps → '%' ∉ s) (args : List Str)
    (hn : args.length = logPlaces ps) (t : Str) (ht : '%' ∉ t) :
    outputf lvl (logFormat ps ++ (t ++ "\n".toList)) args =
      some (levelWord lvl ++ " ".toList ++ logMessage ps args ++ (t ++ "\n".toList)) := by
  unfold outputf defaultLogger
  have key : sprintf ("%s ".toList ++ (logFormat ps ++ (t ++ "\n".toList))) (levelPrefix lvl.num :: args) =
      some (levelWord lvl ++ " ".toList ++ logMessage ps args ++ (t ++ "\n".toList)) := by
    have := sprintf_pieces (.arg :: .text " ".toList :: ps) (by
      intro s hs
      simp only [List.mem_cons, reduceCtorEq, LogPiece.text.injEq, false_or] at hs
      rcases hs with rfl | hs
      · decide
      · exact hp s hs) (levelPrefix lvl.num :: args) (by simp [logPlaces, hn]) (t ++ "\n".toList) (by simpa using ht)
    rw [levelPrefix_word] at this ⊢
    simpa [logFormat, logMessage] using this
  have h1 : hasSuffix ("%s ".toList ++ (logFormat ps ++ (t ++ "\n".toList))) "\n".toList = true := by
    rw [hasSuffix, List.isSuffixOf_iff_suffix, ← List.append_assoc, ← List.append_assoc]
    exact List.suffix_append _ _
  simp only [if_pos h1, key, Option.map_some]
  rw [if_pos (by rw [hasSuffix, List.isSuffixOf_iff_suffix, ← List.append_assoc]; exact List.suffix_append _ _)]

example : outputf .info "read %s\n".toList ["a".toList] = some "Info: read a\n".toList :=
  log_formatted_line .info [.text "read ".toList, .arg] (by
    intro s hs
    simp only [List.mem_cons, LogPiece.text.injEq, reduceCtorEq, List.not_mem_nil, or_false] at hs
    subst hs; decide) ["a".toList] rfl [] (by decide)

/-- **C87, finding.** `Error`, `Warn`, `Info` and `Debug` do not log their arguments as the message: the format has one place only,
which the word of the level takes, so that the message comes out in a complaint about extra arguments on a line of its own. -/
theorem log_plain_mangled (lvl : Level) (v : Str) :
    output lvl [v] = some (levelWord lvl ++ "\n%!(EXTRA string=".toList ++ v ++ ")\n".toList) := by
  have key : sprintf "%s\n".toList [levelWord lvl, v] = some (levelWord lvl ++ "\n%!(EXTRA string=".toList ++ v ++ ")".toList) := by
    have e : sprintf "%s\n".toList [levelWord lvl, v] = (sprintf "\n".toList [v]).map (levelWord lvl ++ ·) := sprintf_arg _ _ _
    rw [e]
    have e2 : sprintf "\n".toList [v] = (sprintf [] [v]).map ('\n' :: ·) := sprintf_plain _ (by decide) _ _
    rw [e2]
    simp [sprintf, extraText, join]
  unfold output defaultLogger
  rw [levelPrefix_word, if_neg (show ¬ hasSuffix "%s".toList "\n".toList = true by decide)]
  have e : "%s".toList ++ "\n".toList = "%s\n".toList := by decide
  simp only [e, key, Option.map_some]
  rw [if_neg]
  · simp
  · simp only [hasSuffix, List.isSuffixOf_iff_suffix]
    rintro ⟨t, h⟩
    have := congrArg List.getLast? h
    rw [List.getLast?_append, List.getLast?_append] at this
    simp at this

example : output .error ["no file".toList] = some "Error:\n%!(EXTRA string=no file)\n".toList := log_plain_mangled .error _

end Xmp.Props
