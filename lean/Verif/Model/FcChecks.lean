import Verif.Model.Hooks
/-! # Checks on file context entries (fc_checks.c) -/

namespace Selint

/-- fc_checks.c:25-35 `SETUP_FOR_FC_CHECK` followed by the body `k` of the check. The data
of an entry is never NULL in the model (`NodeData.fc`), so the second internal error does
not occur. -/
def setupForFcCheck (node : Loc) (k : FcEntry → SelContext → Option CheckResult) :
    Option CheckResult :=
  match node.data with
  | .fc entry =>
    match entry.context with
    | none => none
    | some context => k entry context
  | _ => some (internalError cs!"File context type check called on non file context entry")

/-- fc_checks.c:48-50: the file names S-002 is not performed on. -/
def isGeneratedFc (filename : Str) : Bool :=
  strcmp cs!"base.fc" filename == 0 || strcmp cs!"all_mods.fc" filename == 0
    || endsWith filename cs!".mod.fc"

/-- fc_checks.c:62-83: S-002 once the file is known not to be exempt. -/
def fcTypeInMod (m : Maps) (data : CheckData) (context : SelContext) : Option CheckResult :=
  match m.lookUpDecl context.type .type with
  | none => none
  | some typeDeclModName =>
    if strcmp data.modName typeDeclModName ≠ 0 then
      some ⟨'S', 2, cs!"Type " ++ context.type ++ cs!" is declared in module " ++ typeDeclModName
        ++ cs!", but used in file context here."⟩
    else none

/-- fc_checks.c:37-86 `check_file_context_types_in_mod` (S-002). -/
def checkFileContextTypesInMod (m : Maps) (data : CheckData) (node : Loc) : Option CheckResult :=
  setupForFcCheck node fun _ context =>
    if data.config.skipCheckingGeneratedFcs && isGeneratedFc data.filename then none
    else fcTypeInMod m data context

/-- fc_checks.c:46-57: the static `notified` after a call of S-002; the note is printed when
it changes. -/
def fcTypesNotified (data : CheckData) (node : Loc) (notified : Bool) : Bool :=
  match node.data with
  | .fc entry =>
    notified || (entry.context.isSome && data.config.skipCheckingGeneratedFcs
      && isGeneratedFc data.filename)
  | _ => notified

/-- fc_checks.c:88-101 `check_gen_context_no_range` (S-007). -/
def checkGenContextNoRange (node : Loc) : Option CheckResult :=
  setupForFcCheck node fun _ context =>
    if context.hasGenContext && context.range.isNone then
      some ⟨'S', 7, cs!"No mls levels specified in gen_context"⟩
    else none

/-- fc_checks.c:121-127: the inner loop, fast forward through a bracket group. `path` is the
rest of the path starting at `cur`, `pos` its offset; the result is `prev`, the offset and
the rest afterwards. -/
def skipGroup (prev : Char) (pos : Nat) : Str → Char × Nat × Str
  | [] => (prev, pos, [])
  | cur :: path =>
    if cur ≠ ']' || prev = '\\' then skipGroup cur (pos + 1) path
    else (prev, pos, cur :: path)

theorem skipGroup_length (path : Str) (prev : Char) (pos : Nat) :
    (skipGroup prev pos path).2.2.length ≤ path.length := by
  induction path generalizing prev pos with
  | nil => simp [skipGroup]
  | cons c cs ih =>
    unfold skipGroup
    split
    · exact Nat.le_succ_of_le (ih _ _)
    · exact Nat.le_refl _

/-- fc_checks.c:130-152: the `switch`, with `next` the character after `cur` (NUL at the
end). -/
def regexError (prev cur next : Char) : Bool :=
  match cur with
  | '.' => prev ≠ '\\' && next ≠ '*' && next ≠ '+' && next ≠ '?'
  | '+' => prev ≠ '\\' && prev ≠ '.' && prev ≠ ']' && prev ≠ ')'
  | '*' => prev ≠ '\\' && prev ≠ '.' && prev ≠ ']' && prev ≠ ')'
  | _ => false

/-- fc_checks.c:114-163: the outer loop; the character and offset of the first error. -/
def regexScan (prev : Char) (pos : Nat) (path : Str) : Option (Char × Nat) :=
  match path with
  | [] => none
  | cur :: rest =>
    if h : cur = '[' ∧ prev ≠ '\\' then
      let r := skipGroup prev pos (cur :: rest)
      regexScan r.1 r.2.1 r.2.2
    else if regexError prev cur (rest.headD '\x00') then some (cur, pos)
    else regexScan cur (pos + 1) rest
termination_by path.length
decreasing_by
  · rw [h.1]
    have hs : skipGroup prev pos ('[' :: rest) = skipGroup '[' (pos + 1) rest := by
      conv => lhs; unfold skipGroup
      simp
    show (skipGroup prev pos ('[' :: rest)).2.2.length < ('[' :: rest).length
    rw [hs]
    exact Nat.lt_succ_of_le (skipGroup_length _ _ _)
  · simp

/-- fc_checks.c:103-165 `check_file_context_regex` (W-004). -/
def checkFileContextRegex (node : Loc) : Option CheckResult :=
  setupForFcCheck node fun entry _ =>
    match regexScan '\x00' 0 entry.path with
    | none => none
    | some (cur, pos) =>
      some ⟨'W', 4,
        cs!"File context path contains a potentially unescaped regex character '" ++ [cur]
        ++ cs!"' at position " ++ natToStr (pos + 1) ++ cs!": " ++ entry.path⟩

/-- fc_checks.c:167-178 `check_file_context_error_nodes` (E-002). -/
def checkFileContextErrorNodes (node : Loc) : Option CheckResult :=
  if node.flavor ≠ .error then none else some ⟨'E', 2, cs!"Bad file context format"⟩

/-- fc_checks.c:180-196 `check_file_context_users` (E-003). -/
def checkFileContextUsers (m : Maps) (node : Loc) : Option CheckResult :=
  setupForFcCheck node fun _ context =>
    match m.lookUpDecl context.user .user with
    | none => some ⟨'E', 3, cs!"Nonexistent user (" ++ context.user ++ cs!") listed in fc_entry"⟩
    | some _ => none

/-- fc_checks.c:198-214 `check_file_context_roles` (E-004). -/
def checkFileContextRoles (m : Maps) (node : Loc) : Option CheckResult :=
  setupForFcCheck node fun _ context =>
    match m.lookUpDecl context.role .role with
    | none => some ⟨'E', 4, cs!"Nonexistent role (" ++ context.role ++ cs!") listed in fc_entry"⟩
    | some _ => none

/-- fc_checks.c:216-234 `check_file_context_types_exist` (E-005). -/
def checkFileContextTypesExist (m : Maps) (node : Loc) : Option CheckResult :=
  setupForFcCheck node fun _ context =>
    match m.lookUpDecl context.type .type with
    | none => some ⟨'E', 5, cs!"Nonexistent type (" ++ context.type ++ cs!") listed in fc_entry"⟩
    | some _ => none

end Selint
