import Verif.Model.Template
/-! # Permission macros (perm_macro.c) -/

namespace Selint

/-- perm_macro.c:28 `mask_t` (`uint32_t`). -/
abbrev Mask := BitVec 32

/-! ## perm_macro.c:46-117: permission bits -/
namespace Pm
/-- `1u << n`. -/
def bit (n : Nat) : Mask := 1#32 <<< n
/-- perm_macro.c:48 -/
def ioctl := bit 1
/-- perm_macro.c:49 -/
def read := bit 2
/-- perm_macro.c:50 -/
def write := bit 3
/-- perm_macro.c:51 -/
def create := bit 4
/-- perm_macro.c:52 -/
def getattr := bit 5
/-- perm_macro.c:53 -/
def setattr := bit 6
/-- perm_macro.c:54 -/
def lock := bit 7
/-- perm_macro.c:55 -/
def relabelfrom := bit 8
/-- perm_macro.c:56 -/
def relabelto := bit 9
/-- perm_macro.c:57 -/
def append := bit 10
/-- perm_macro.c:58 -/
def map := bit 11
/-- perm_macro.c:59 -/
def unlink := bit 12
/-- perm_macro.c:60 -/
def link := bit 13
/-- perm_macro.c:61 -/
def rename := bit 14
/-- perm_macro.c:62 -/
def execute := bit 15
/-- perm_macro.c:63 -/
def mounton := bit 16
/-- perm_macro.c:64 -/
def open_ := bit 17
/-- perm_macro.c:65 -/
def watch := bit 18
/-- perm_macro.c:68 -/
def addName := bit 19
/-- perm_macro.c:69 -/
def removeName := bit 20
/-- perm_macro.c:70 -/
def reparent := bit 21
/-- perm_macro.c:71 -/
def search := bit 23
/-- perm_macro.c:72 -/
def rmdir := bit 24
/-- perm_macro.c:75 -/
def execNoTrans := bit 25
/-- perm_macro.c:76 -/
def entrypoint := bit 26
/-- perm_macro.c:79 `PM_CF__UNCOVERED` -/
def uncovered := bit 31
/-- perm_macro.c:93 -/
def writeX := write ||| ioctl ||| getattr ||| append ||| lock
/-- perm_macro.c:97 -/
def unlinkX := unlink ||| getattr ||| rmdir
/-- perm_macro.c:101 -/
def executeX := execute ||| read ||| getattr ||| map
/-- perm_macro.c:95 -/
def setattrX := setattr ||| getattr
/-- perm_macro.c:99 -/
def renameX := rename ||| getattr
/-- perm_macro.c:108 -/
def reparentX := reparent ||| getattr
end Pm

/-- perm_macro.c:113-117 `struct pm_ltable`. -/
structure PmEntry where
  name : Str
  raw : Mask
  ext : Mask
  deriving DecidableEq, Repr

open Pm in
/-- perm_macro.c:119-158 `pm_ltable_common_file`, the extended flags (87-110) written out. -/
def pmTable : List PmEntry :=
  [ ⟨cs!"ioctl", ioctl, ioctl⟩,
    ⟨cs!"read", read, read ||| ioctl ||| getattr ||| search ||| lock⟩,
    ⟨cs!"write", write, writeX⟩,
    ⟨cs!"create", create, create ||| getattr ||| link⟩,
    ⟨cs!"getattr", getattr, getattr⟩,
    ⟨cs!"setattr", setattr, setattrX⟩,
    ⟨cs!"lock", lock, lock ||| getattr⟩,
    ⟨cs!"relabelfrom", relabelfrom, relabelfrom ||| getattr⟩,
    ⟨cs!"relabelto", relabelto, relabelto ||| getattr⟩,
    ⟨cs!"append", append, append ||| getattr⟩,
    ⟨cs!"map", map, map ||| ioctl ||| getattr⟩,
    ⟨cs!"unlink", unlink, unlinkX⟩,
    ⟨cs!"link", link, link ||| getattr⟩,
    ⟨cs!"rename", rename, renameX⟩,
    ⟨cs!"execute", execute, executeX⟩,
    ⟨cs!"mounton", mounton, mounton ||| getattr⟩,
    ⟨cs!"open", open_, open_ ||| getattr⟩,
    ⟨cs!"watch", watch, watch ||| read⟩,
    ⟨cs!"add_name", addName, addName ||| writeX⟩,
    ⟨cs!"remove_name", removeName, removeName ||| writeX⟩,
    ⟨cs!"reparent", reparent, reparentX⟩,
    ⟨cs!"search", search, search ||| getattr⟩,
    ⟨cs!"rmdir", rmdir, rmdir ||| unlinkX⟩,
    ⟨cs!"execute_no_trans", execNoTrans, execNoTrans ||| executeX⟩,
    ⟨cs!"entrypoint", entrypoint, entrypoint⟩,
    ⟨cs!"quotaon", uncovered, uncovered⟩,
    ⟨cs!"audit_access", uncovered, uncovered⟩,
    ⟨cs!"execmod", uncovered, uncovered⟩,
    ⟨cs!"watch_mount", uncovered, uncovered⟩,
    ⟨cs!"watch_sb", uncovered, uncovered⟩,
    ⟨cs!"watch_with_perm", uncovered, uncovered⟩,
    ⟨cs!"watch_reads", uncovered, uncovered⟩ ]

/-! ## Masks -/

/-- The two output parameters `mask_raw` and `mask_extended`. -/
structure Masks where
  raw : Mask
  ext : Mask
  deriving DecidableEq, Repr

/-- perm_macro.c:165-171: the table lookup of `str_to_mask`. -/
def pmFind (permission : Str) : List PmEntry → Option PmEntry
  | [] => none
  | e :: es => if strcmp permission e.name = 0 then some e else pmFind permission es

/-- perm_macro.c:163-182 `str_to_mask`; `rec` is `compute_perm_mask`. -/
def strToMask (m : Maps) (rec : List Str → Masks → Res Masks) (permission : Str) (acc : Masks) :
    Res Masks :=
  match pmFind permission pmTable with
  | some e => .ok ⟨acc.raw ||| e.raw, acc.ext ||| e.ext⟩
  | none =>
    match m.lookUpPermmacro permission with
    | some macroPerms => rec macroPerms acc
    | none => .ok ⟨acc.raw ||| Pm.uncovered, acc.ext ||| Pm.uncovered⟩

/-- perm_macro.c:184-189: the loop of `compute_perm_mask`. -/
def maskLoop (f : Str → Masks → Res Masks) : List Str → Masks → Res Masks
  | [], acc => .ok acc
  | p :: ps, acc =>
    match f p acc with
    | .ok acc' => maskLoop f ps acc'
    | .ub => .ub

/-- perm_macro.c:184-189 `compute_perm_mask` with at most `fuel` nested calls; a deeper
recursion is `.ub` (the C program would exhaust its stack). -/
def computePermMaskF (m : Maps) : Nat → List Str → Masks → Res Masks
  | 0 => fun _ _ => .ub
  | fuel + 1 => maskLoop (strToMask m (computePermMaskF m fuel))

/-- The nesting bound used by the model: one more than the number of macros. It is not a
limit: `C23_fuel_irrelevant` shows that any computation that needs more never ends. -/
def pmFuel (m : Maps) : Nat := m.permmacros.length + 1

/-- perm_macro.c:184-189 `compute_perm_mask`. -/
def computePermMask (m : Maps) (permissions : List Str) (acc : Masks) : Res Masks :=
  computePermMaskF m (pmFuel m) permissions acc

/-- A call `str_to_mask(p, &mask_raw, &mask_extended)` with both masks 0. -/
def maskOf (m : Maps) (p : Str) : Res Masks := strToMask m (computePermMaskF m (pmFuel m)) p ⟨0, 0⟩

/-! ## String builder -/

/-- perm_macro.c:191-195 `struct string_builder`. -/
structure StringBuilder where
  mem : Buf
  len : Nat
  cap : Nat
  deriving DecidableEq, Repr

/-- perm_macro.c:197-210 `sb_create`. -/
def sbCreate (initCap : Nat) : StringBuilder :=
  let cap := if initCap = 0 then 32 else initCap
  ⟨.nul :: List.replicate (cap - 1) .junk, 0, cap⟩

/-- perm_macro.c:224-227: the growth loop, with a bound on the number of doublings; `none`
means that it is still running. `realloc` keeps the contents and adds uninitialised bytes.
Simplification: `2 * cap` does not overflow `size_t`. -/
def sbGrow : Nat → StringBuilder → Nat → Option StringBuilder
  | 0, _, _ => none
  | fuel + 1, sb, len =>
    if sb.len + len + 1 > sb.cap then
      sbGrow fuel ⟨sb.mem ++ List.replicate sb.cap .junk, sb.len, 2 * sb.cap⟩ len
    else some sb

/-- perm_macro.c:222-232 `sb_append_strn` with `len = strlen(str)`, and 234-237
`sb_append_str`. -/
def sbAppend (sb : StringBuilder) (str : Str) : Res StringBuilder :=
  match sbGrow (sb.len + str.length + 2) sb str.length with
  | none => .ub
  | some sb =>
    match bufStrncpy sb.mem sb.len str with
    | .ub => .ub
    | .ok mem =>
      match bufWrite mem (sb.len + str.length) [.nul] with
      | .ub => .ub
      | .ok mem => .ok ⟨mem, sb.len + str.length, sb.cap⟩

/-- A sequence of `sb_append_str` calls. -/
def sbAppendAll : StringBuilder → List Str → Res StringBuilder
  | sb, [] => .ok sb
  | sb, s :: ss =>
    match sbAppend sb s with
    | .ok sb => sbAppendAll sb ss
    | .ub => .ub

/-- perm_macro.c:239-246 `sb_decouple_str`: the string in the buffer. -/
def sbDecouple (sb : StringBuilder) : Res Str := bufString sb.mem

/-! ## Messages -/

/-- perm_macro.c:265-271: the loop of `mask_to_str`. -/
def maskToStrLoop : List PmEntry → Mask → StringBuilder → Res StringBuilder
  | [], _, sb => .ok sb
  | e :: es, mask, sb =>
    if mask &&& e.raw ≠ 0 then
      match sbAppend sb e.name with
      | .ub => .ub
      | .ok sb =>
        match sbAppend sb cs!" " with
        | .ub => .ub
        | .ok sb => maskToStrLoop es (mask &&& ~~~e.raw) sb
    else maskToStrLoop es mask sb

/-- perm_macro.c:248-276 `mask_to_str`. Simplification: the diagnostic printed at 258 is not
modelled. -/
def maskToStr (mask : Mask) : Res Str := do
  let sb := sbCreate 0
  if mask = 0 then
    let sb ← sbAppend sb cs!"(none)"
    sbDecouple sb
  else if mask &&& Pm.uncovered ≠ 0 then
    let sb ← sbAppend sb cs!"(unsupported perm)"
    sbDecouple sb
  else
    let sb ← sbAppend sb cs!"{ "
    let sb ← maskToStrLoop pmTable mask sb
    let sb ← sbAppend sb cs!"}"
    sbDecouple sb

/-- perm_macro.c:284-291: the loop of `permission_strings_matched_str`. -/
def matchedStrLoop (m : Maps) (mask : Mask) : List Str → StringBuilder → Res StringBuilder
  | [], sb => .ok sb
  | p :: ps, sb =>
    match maskOf m p with
    | .ub => .ub
    | .ok r =>
      if r.raw &&& mask = r.raw then
        match sbAppend sb p with
        | .ub => .ub
        | .ok sb =>
          match sbAppend sb cs!" " with
          | .ub => .ub
          | .ok sb => matchedStrLoop m mask ps sb
      else matchedStrLoop m mask ps sb

/-- perm_macro.c:278-296 `permission_strings_matched_str`. -/
def permissionStringsMatchedStr (m : Maps) (permissions : List Str) (mask : Mask) : Res Str := do
  let sb ← sbAppend (sbCreate 0) cs!"{ "
  let sb ← matchedStrLoop m mask permissions sb
  let sb ← sbAppend sb cs!"}"
  sbDecouple sb

/-- perm_macro.c:298-311 `permission_strings_matched_count`, with the running count.
Simplification: the `unsigned short` counter does not overflow. -/
def matchedCount (m : Maps) (mask : Mask) : List Str → Nat → Res Nat
  | [], count => .ok count
  | p :: ps, count =>
    match maskOf m p with
    | .ub => .ub
    | .ok r => matchedCount m mask ps (if r.raw &&& mask = r.raw then count + 1 else count)

/-- perm_macro.c:316-318: the loop of `popcount`, with a bound on the number of iterations;
`none` means that it is still running. -/
def popcountLoop : Nat → Mask → Nat → Option Nat
  | fuel, mask, c =>
    if mask = 0 then some c
    else match fuel with
      | 0 => none
      | fuel + 1 => popcountLoop fuel (mask &&& (mask - 1)) (c + 1)

/-- perm_macro.c:313-320 `popcount`. `C27_popcount` shows that 32 iterations always
suffice, so the default value is never used. -/
def popcount (mask : Mask) : Nat := (popcountLoop 32 mask 0).getD 0

/-! ## Macro lists -/

/-- perm_macro.c:30-34 `struct perm_macro`; the lists linked by `next` are Lean lists. -/
structure PermMacro where
  name : Str
  maskRaw : Mask
  deriving DecidableEq, Repr

/-- The seven static lists of perm_macro.c:38-44. -/
inductive Category where
  | dir | file | lnkFile | chrFile | blkFile | sockFile | fifoFile
  deriving DecidableEq, Repr

/-- perm_macro.c:36-44: the static state. -/
structure PmState where
  initialized : Bool
  lists : Category → List PermMacro

/-- perm_macro.c:36-44, 524-544 (`free_permmacros`): the state at program start and after
cleanup. -/
def PmState.init : PmState := ⟨false, fun _ => []⟩

/-- perm_macro.c:333-353: the list a macro belongs to, from its name. -/
def macroCategory (name : Str) : Option Category :=
  if endsWith name cs!"_dir_perms" then some .dir
  else if endsWith name cs!"_lnk_file_perms" then some .lnkFile
  else if endsWith name cs!"_chr_file_perms" then some .chrFile
  else if endsWith name cs!"_term_perms" then some .chrFile
  else if endsWith name cs!"_blk_file_perms" then some .blkFile
  else if endsWith name cs!"_sock_file_perms" then some .sockFile
  else if endsWith name cs!"_fifo_file_perms" then some .fifoFile
  else if endsWith name cs!"_file_perms" then some .file
  else none

/-- perm_macro.c:359-389: insertion into one list. -/
def insertMacro (tmp : PermMacro) : List PermMacro → List PermMacro
  | [] => [tmp]
  | cur :: rest =>
    if popcount tmp.maskRaw < popcount cur.maskRaw then tmp :: cur :: rest
    else cur :: insertMacro tmp rest

/-- perm_macro.c:322-390 `load_permission_macro`. -/
def loadPermissionMacro (m : Maps) (lists : Category → List PermMacro) (name : Str)
    (permissions : List Str) : Res (Category → List PermMacro) :=
  match computePermMask m permissions ⟨0, 0⟩ with
  | .ub => .ub
  | .ok r =>
    if r.raw &&& Pm.uncovered ≠ 0 then .ok lists
    else
      match macroCategory name with
      | none => .ok lists
      | some c => .ok fun c' => if c' = c then insertMacro ⟨name, r.raw⟩ (lists c) else lists c'

/-- maps.c:519-526 `visit_all_in_permmacros_map(load_permission_macro)`. -/
def loadAll (m : Maps) : List (Str × List Str) → (Category → List PermMacro) →
    Res (Category → List PermMacro)
  | [], lists => .ok lists
  | (name, perms) :: rest, lists =>
    match loadPermissionMacro m lists name perms with
    | .ub => .ub
    | .ok lists => loadAll m rest lists

/-- perm_macro.c:400-417: the list for an object class. -/
def classCategory (cls : Str) : Option Category :=
  if strcmp cls cs!"dir" = 0 then some .dir
  else if strcmp cls cs!"file" = 0 then some .file
  else if strcmp cls cs!"lnk_file" = 0 then some .lnkFile
  else if strcmp cls cs!"chr_file" = 0 then some .chrFile
  else if strcmp cls cs!"blk_file" = 0 then some .blkFile
  else if strcmp cls cs!"sock_file" = 0 then some .sockFile
  else if strcmp cls cs!"fifo_file" = 0 then some .fifoFile
  else none

/-! ## permmacro_check -/

/-- perm_macro.c:428-441: the special extending rules. -/
def extendSpecial (ext : Mask) : Mask :=
  let ext := if ext &&& (Pm.create ||| Pm.write) ≠ 0 then ext ||| Pm.setattrX else ext
  if ext &&& (Pm.create ||| Pm.unlink) ≠ 0 then ext ||| (Pm.renameX ||| Pm.reparentX) else ext

/-- perm_macro.c:443-446: the best match so far. -/
structure Best where
  name : Str
  coverage : Nat
  extending : Nat
  maskRaw : Mask
  deriving DecidableEq, Repr

/-- `best_coverage`, 0 initially. -/
def bestCoverage : Option Best → Nat
  | none => 0
  | some b => b.coverage

/-- `best_extending`, 0 initially. -/
def bestExtending : Option Best → Nat
  | none => 0
  | some b => b.extending

/-- perm_macro.c:447-482: the selection loop. -/
def selectBest (m : Maps) (permissions : List Str) (raw ext : Mask) :
    List PermMacro → Option Best → Res (Option Best)
  | [], best => .ok best
  | cur :: rest, best =>
    if cur.maskRaw &&& ~~~ext ≠ 0 then selectBest m permissions raw ext rest best
    else
      let coverage := popcount (cur.maskRaw &&& raw)
      if coverage < 2 then selectBest m permissions raw ext rest best
      else if coverage < bestCoverage best then selectBest m permissions raw ext rest best
      else
        let extending := popcount (cur.maskRaw &&& ~~~raw)
        if coverage = bestCoverage best ∧ extending > bestExtending best then
          selectBest m permissions raw ext rest best
        else
          match matchedCount m (cur.maskRaw &&& raw) permissions 0 with
          | .ub => .ub
          | .ok n =>
            if n < 2 then selectBest m permissions raw ext rest best
            else selectBest m permissions raw ext rest
              (some ⟨cur.name, coverage, extending, cur.maskRaw⟩)

/-- perm_macro.c:394-398: fill the lists on the first call. -/
def pmInitialize (m : Maps) (st : PmState) : Res PmState :=
  if st.initialized then .ok st
  else
    match loadAll m m.permmacros st.lists with
    | .ub => .ub
    | .ok lists => .ok ⟨true, lists⟩

/-- perm_macro.c:419-505: the part of `permmacro_check` after the list has been chosen. -/
def permmacroCheckIn (m : Maps) (category : List PermMacro) (permissions : List Str) :
    Res (Option Str) := do
  let r ← computePermMask m permissions ⟨0, 0⟩
  if popcount (r.raw &&& ~~~Pm.uncovered) < 2 then return none
  let best ← selectBest m permissions r.raw (extendSpecial r.ext) category none
  match best with
  | none => return none
  | some b =>
    if strInSl b.name permissions then return none
    let added ← maskToStr (b.maskRaw &&& ~~~r.raw)
    let matched ← permissionStringsMatchedStr m permissions (b.maskRaw &&& r.raw)
    return some (cs!"Suggesting permission macro: " ++ b.name ++ cs!" (replacing " ++ matched ++
      cs!", would add " ++ added ++ cs!")")

/-- perm_macro.c:392-505 `permmacro_check`: the new static state and the message, if any.
`.ub` is a crash: recursion without end, or an access outside a buffer. -/
def permmacroCheck (m : Maps) (st : PmState) (cls : Str) (permissions : List Str) :
    Res (PmState × Option Str) := do
  let st ← pmInitialize m st
  match classCategory cls with
  | none => return (st, none)
  | some c =>
    let r ← permmacroCheckIn m (st.lists c) permissions
    return (st, r)

end Selint
