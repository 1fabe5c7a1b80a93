import Verif.Model.Lr
/-!
# What the parser's actions compute

The statements of the actions once more, on values instead of addresses and on the functional
state of the parser instead of memory. `none`: the action comes to `YYERROR` or is undefined.
-/

namespace Selint
namespace Lr

/-- A semantic value, read from memory. -/
inductive FVal where
  | none
  | word (s : Str)
  | list (l : List (Str × Bool))
  | av (fl : AvFlavor)
  | ifKind (isTemplate : Bool)

/-- A list of names without marks. -/
def FVal.names (l : List Str) : FVal := .list (l.map fun s => (s, false))

/-- `$n`, a string. -/
def wordOf (fs : List FVal) (n : Nat) : Option Str :=
  match fs[n - 1]? with
  | some (.word s) => some s
  | _ => none

/-- `$n`, a list. -/
def markedOf (fs : List FVal) (n : Nat) : Option (List (Str × Bool)) :=
  match fs[n - 1]? with
  | some (.list l) => some l
  | _ => none

/-- `$n`, a list of names. -/
def namesOf (fs : List FVal) (n : Nat) : Option (List Str) :=
  match fs[n - 1]? with
  | some (.list l) => some (l.map (·.1))
  | _ => none

/-- `$n`, the kind of a rule. -/
def avOf (fs : List FVal) (n : Nat) : Option AvFlavor :=
  match fs[n - 1]? with
  | some (.av fl) => some fl
  | _ => none

/-- `$n`, the kind of a definition. -/
def ifKindOf (fs : List FVal) (n : Nat) : Option Bool :=
  match fs[n - 1]? with
  | some (.ifKind b) => some b
  | _ => none

/-- The parser's state and `$$`. -/
structure Eff where
  st : PState
  ret : FVal

/-- The table entry for a list of permissions. -/
def macroMaps (m : Maps) (s : Str) (l : List Str) : Maps :=
  if endsWith s cs!"_perms" then m.insertPermmacro s l else m

/-- What a statement computes. -/
def Cmd.eval (expected : PlainFlavor) (line : Nat) (fs : List FVal) (e : Eff) : Cmd → Option Eff
  | .copy n => fs[n - 1]?.map fun f => { e with ret := f }
  | .text t => some { e with ret := .word t }
  | .dup n => (wordOf fs n).map fun s => { e with ret := .word s }
  | .minus n => (wordOf fs n).map fun s => { e with ret := .word ('-' :: s) }
  | .join c n k => (wordOf fs n).bind fun s => (wordOf fs k).map fun t =>
      { e with ret := .word (s ++ c :: t) }
  | .single t => some { e with ret := .names [t] }
  | .consume n => (wordOf fs n).map fun s => { e with ret := .names [s] }
  | .tilda n => (namesOf fs n).map fun l => { e with ret := .names (cs!"~" :: l) }
  | .append n k => (namesOf fs n).bind fun l => (wordOf fs k).map fun s =>
      { e with ret := .names (l ++ [s]) }
  | .concat n k => (markedOf fs n).bind fun l => (markedOf fs k).map fun l' =>
      { e with ret := .list (l ++ l') }
  | .space n k => (markedOf fs n).bind fun l => (wordOf fs k).map fun s =>
      { e with ret := .list (l ++ [(s, true)]) }
  | .av fl => some { e with ret := .av fl }
  | .ifKind b => some { e with ret := .ifKind b }
  | .free _ => some e
  | .freeList _ => some e
  | .expect fl _ => if expected = fl then some e else none
  | .expectAllow n _ => (avOf fs n).bind fun fl => if fl = .allow then some e else none
  | .setEmpty => some { e with st := PState.init .empty e.st.module e.st.maps }
  | .insertComment => some { e with st := e.st.insertComment line }
  | .insertSemicolon => some { e with st := e.st.insertSemicolon line }
  | .insertHeader fl n => (wordOf fs n).map fun s => { e with st := e.st.insertHeader s fl line }
  | .declare fl n => (wordOf fs n).map fun s => { e with st := e.st.insertDeclaration fl s [] line }
  | .declareWith fl n k => (wordOf fs n).bind fun s => (namesOf fs k).map fun l =>
      { e with st := e.st.insertDeclaration fl s l line }
  | .insertAliases n => (namesOf fs n).map fun l => { e with st := e.st.insertAliases l .type line }
  | .insertTypeAlias n => (wordOf fs n).map fun s => { e with st := e.st.insertTypeAlias s line }
  | .insertAttribute fl n k => (wordOf fs n).bind fun s => (namesOf fs k).map fun l =>
      { e with st := e.st.insertAttribute ⟨s, l, fl⟩ line }
  | .insertAvRule a x t c p => (avOf fs a).bind fun fl => (namesOf fs x).bind fun x =>
      (namesOf fs t).bind fun t => (namesOf fs c).bind fun c => (namesOf fs p).map fun p =>
      { e with st := e.st.insertAvRule ⟨fl, x, t, c, p⟩ line }
  | .insertXpermAvRule a x t c o p => (avOf fs a).bind fun fl => (namesOf fs x).bind fun x =>
      (namesOf fs t).bind fun t => (namesOf fs c).bind fun c => (wordOf fs o).bind fun o =>
      (namesOf fs p).map fun p => { e with st := e.st.insertXpermAvRule ⟨fl, x, t, c, p⟩ o line }
  | .insertRoleAllow n k => (namesOf fs n).bind fun l => (namesOf fs k).map fun l' =>
      { e with st := e.st.insertRoleAllow l l' line }
  | .insertRoleTypes n k => (wordOf fs n).bind fun s => (namesOf fs k).map fun l =>
      { e with st := e.st.insertRoleTypes s l line }
  | .insertTransition fl x t c d => (namesOf fs x).bind fun x => (namesOf fs t).bind fun t =>
      (namesOf fs c).bind fun c => (wordOf fs d).map fun d =>
      { e with st := e.st.insertTypeTransition ⟨x, t, c, d, none, fl⟩ line }
  | .insertNamedTransition x t c d n => (namesOf fs x).bind fun x => (namesOf fs t).bind fun t =>
      (namesOf fs c).bind fun c => (wordOf fs d).bind fun d => (wordOf fs n).map fun n =>
      { e with st := e.st.insertTypeTransition ⟨x, t, c, d, some n, .tt⟩ line }
  | .insertRoleTransition x t d => (namesOf fs x).bind fun x => (namesOf fs t).bind fun t =>
      (wordOf fs d).map fun d => { e with st := e.st.insertRoleTransition ⟨x, t, [], d⟩ line }
  | .insertRoleTransitionClass x t c d => (namesOf fs x).bind fun x => (namesOf fs t).bind fun t =>
      (namesOf fs c).bind fun c => (wordOf fs d).map fun d =>
      { e with st := e.st.insertRoleTransition ⟨x, t, c, d⟩ line }
  | .insertCall n k => (wordOf fs n).bind fun s => (markedOf fs k).bind fun l =>
      match e.st.insertInterfaceCall ⟨s, l⟩ line with
      | .ok st => some { e with st := st }
      | .ub => none
  | .insertCallNoArgs n => (wordOf fs n).bind fun s =>
      match e.st.insertInterfaceCall ⟨s, []⟩ line with
      | .ok st => some { e with st := st }
      | .ub => none
  | .insertM4SimpleMacro n => (wordOf fs n).map fun s =>
      { e with st := e.st.insertM4SimpleMacro s line }
  | .insertPermissive n => (wordOf fs n).map fun s => { e with st := e.st.insertPermissive s line }
  | .beginBlock fl => some { e with st := e.st.beginBlock (.plain fl none) line }
  | .endBlock fl => some { e with st := e.st.endBlock fl }
  | .beginGenRequire => some { e with st := e.st.beginGenRequire line }
  | .endGenRequire b => some { e with st := e.st.endGenRequire b }
  | .beginInterfaceDef n k => (ifKindOf fs n).bind fun b => (wordOf fs k).map fun s =>
      { e with st := e.st.beginInterfaceDef b s line }
  | .endInterfaceDef => some { e with st := e.st.endInterfaceDef }
  | .saveCommand n => (wordOf fs n).map fun s => { e with st := e.st.command s }
  | .saveParent n => (wordOf fs n).map fun s => { e with st := e.st.parentCommand (some s) }
  | .declareAll fl n => (namesOf fs n).map fun l =>
      { e with st := l.foldl (fun st n => st.insertDeclaration fl n [] line) e.st }
  | .insertAv fl n => (wordOf fs n).map fun s =>
      { e with st := { e.st with maps := e.st.maps.insertDecl s avFileName fl } }
  | .insertMacro n k => (wordOf fs n).bind fun s => (namesOf fs k).map fun l =>
      { e with st := { e.st with maps := macroMaps e.st.maps s l } }

/-- What the statements of an action compute, one after the other. -/
def evalAll (expected : PlainFlavor) (line : Nat) (fs : List FVal) : List Cmd → Eff → Option Eff
  | [], e => some e
  | c :: cs, e => (c.eval expected line fs e).bind (evalAll expected line fs cs)

end Lr
end Selint
