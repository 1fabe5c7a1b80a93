import Verif.Spec.Checks
/-! # Specification of the checks on te files -/

namespace Selint.Spec

/-- C-005: a pair of neighbouring permissions out of order. A complement sign and what
follows it, and a range dash and what precedes it, are no pair. -/
def Misordered (pc : Str × Str) : Prop := pc.1 ≠ cs!"~" ∧ pc.2 ≠ cs!"-" ∧ ¬ pc.1 < pc.2

/-- C-005: what is said about such a pair in a statement of the given kind. -/
def misorderedMessage (kind : Str) (pc : Str × Str) : Str :=
  if pc.1 = pc.2 then cs!"Permissions in " ++ kind ++ cs!" repeated (" ++ pc.2 ++ cs!")"
  else cs!"Permissions in " ++ kind ++ cs!" not ordered (" ++ pc.1 ++ cs!" before " ++ pc.2 ++ cs!")"

/-- The permissions of a statement and the kind of statement C-005 names. -/
inductive PermsOf : NodeData → Str → List Str → Prop where
  | av (d : AvData) : PermsOf (.av d) cs!"av rule" d.perms
  | xav (d : AvData) (op : Str) : PermsOf (.xav d op) cs!"xav rule" d.perms
  | cls (d : DeclData) : d.flavor = .cls → PermsOf (.decl d) cs!"class declaration" d.attrs

/-- C-007: a rule from a type to itself that does not say `self`. -/
def RedundantTarget (ops : List MapOp) (sources targets : List Str) : Prop :=
  ∃ t, sources = [t] ∧ targets = [t] ∧ t ≠ cs!"self" ∧
    ((∃ rest, t = '$' :: rest) ∧ cs!"_t" <:+ t ∨
      (¬ ∃ rest, t = '$' :: rest) ∧ DeclaredIn ops .type t)

/-- W-001: module and class of a name that is known as a type, else as an attribute, else as
a role attribute. -/
def ExplicitSymbol (ops : List MapOp) (name mod : Str) (fl : DeclFlavor) : Prop :=
  FirstDeclaredBy ops fl name mod ∧
    (fl = .type ∨
     fl = .attribute ∧ ¬ DeclaredIn ops .type name ∨
     fl = .attributeRole ∧ ¬ DeclaredIn ops .type name ∧ ¬ DeclaredIn ops .attribute name)

/-- W-007: the argument after the unquoted space is not an exclusion from something else than
a known symbol. -/
def SpaceMatters (ops : List MapOp) (before arg : Str) : Prop :=
  (¬ ∃ rest, arg = '-' :: rest) ∨
  DeclaredIn ops .type before ∨ DeclaredIn ops .attribute before ∨ DeclaredIn ops .role before ∨
  DeclaredIn ops .attributeRole before ∨ DeclaredIn ops .user before

/-- W-007: `p` and the argument after it are separated by an unquoted space that matters;
`k` arguments start before the end of `p`. -/
def SpaceAt (ops : List MapOp) (args : List (Str × Bool)) (pos : Nat) (p : Str) (k : Nat) : Prop :=
  ∃ before b arg after, args = before ++ (p, b) :: (arg, true) :: after ∧ before.length = pos ∧
    SpaceMatters ops p arg ∧ k = (before ++ [(p, b)]).countP (fun a => !a.2)

/-- The name of a file without its last extension. -/
def Stem (filename stem : Str) : Prop :=
  (∃ ext, filename = stem ++ '.' :: ext ∧ '.' ∉ ext) ∨ ('.' ∉ filename ∧ filename = stem)

/-- The abbreviations that the reference policy uses in names of interfaces. -/
def abbreviations : List (Str × Str) :=
  [(cs!"fs", cs!"filesystem"), (cs!"corecmd", cs!"corecommands"), (cs!"seutil", cs!"selinuxutil"),
   (cs!"libs", cs!"libraries"), (cs!"dev", cs!"devices"), (cs!"term", cs!"terminal"),
   (cs!"corenet", cs!"corenetwork"), (cs!"auth", cs!"authlogin"), (cs!"userdom", cs!"userdomain"),
   (cs!"sysnet", cs!"sysnetwork")]

/-- W-010: the name starts with the name of a known module, or its abbreviation, and an
underscore. -/
def HasModulePrefix (ops : List MapOp) (name : Str) : Prop :=
  ∃ pre rest, name = pre ++ '_' :: rest ∧
    (KnownModule ops pre ∨ ∃ full, (pre, full) ∈ abbreviations ∧ KnownModule ops full)

/-- E-007: a word in the place of a permission that is none. -/
def UnknownPermission (ops : List MapOp) (p : Str) : Prop :=
  p ≠ cs!"*" ∧ p ≠ cs!"~" ∧ ¬ (cs!"all_" <+: p ∧ cs!"_perms" <:+ p) ∧
  ¬ DeclaredIn ops .perm p ∧ ¬ KnownPermMacro ops p

/-- E-008: a word in the place of a class that is none. -/
def UnknownClass (ops : List MapOp) (c : Str) : Prop :=
  ¬ (∃ d rest, c = '$' :: d :: rest ∧ d.isDigit = true) ∧ ¬ cs!"_class_set" <:+ c ∧
  ¬ DeclaredIn ops .cls c

/-- The object classes of a statement. -/
inductive ClassesOf : NodeData → List Str → Prop where
  | av (d : AvData) : ClassesOf (.av d) d.objectClasses
  | rt (d : RtData) : ClassesOf (.rt d) d.objectClasses
  | tt (d : TtData) : ClassesOf (.tt d) d.objectClasses

/-- E-009: a node that is no statement. -/
def NoStatement (t : Tree) : Prop :=
  t.info.flavor = .startBlock ∨ t.info.flavor = .comment ∨ t.info.flavor = .semicolon

/-- E-010: the word stands in an argument of `ifelse` that is compared with another. The
innermost argument of an `ifelse` around the word (or the word itself) counts; it is not the
last argument, and its number is not divisible by three (the children of an `ifelse` are a
marker and the arguments). -/
def InComparison (l : Loc) : Prop :=
  ∃ arg ifelse : Loc, (arg = l ∨ Encloses arg l) ∧ arg.flavor = .m4Arg ∧
    arg.parent? = some ifelse ∧ ifelse.flavor = .ifelse ∧
    (∀ a, (a = l ∨ Encloses a l) → Encloses arg a → a.flavor = .m4Arg →
      ∀ i, a.parent? = some i → i.flavor ≠ .ifelse) ∧
    arg.rights ≠ [] ∧ arg.lefts.length % 3 ≠ 0

end Selint.Spec

namespace Selint.Spec

/-- S-001: a block that requires something else than classes and permissions. -/
def RequiresSymbol (block : Loc) : Prop :=
  ∃ t ∈ block.focus.children, ∃ d, t.info.data = .decl d ∧ d.flavor ≠ .cls ∧ d.flavor ≠ .perm

/-- S-009: the permission macro is named for the class. Character devices have macros named
for terminals, processes have macros named for signals. -/
def NamedFor (perm cls : Str) : Prop :=
  cls ++ cs!"_perms" <:+ perm ∨ (cls = cs!"chr_file" ∧ cs!"term_perms" <:+ perm) ∨
  (cls = cs!"process" ∧ cs!"signal_perms" <:+ perm)

/-- The classes of special files. -/
def specialFiles : List Str :=
  [cs!"lnk_file", cs!"chr_file", cs!"blk_file", cs!"sock_file", cs!"fifo_file"]

/-- S-009: the permission macro does for the classes. It is named for all of them (what is
named for a special file is not for plain files, although its name ends that way), or it is
for sockets and all classes are sockets of netlink, or all are sockets, not all of netlink,
and the macro is not for those of netlink. -/
def MacroFits (perm : Str) (classes : List Str) : Prop :=
  ((∀ c ∈ classes, NamedFor perm c) ∧
    ¬ (cs!"file" ∈ classes ∧ ∃ f ∈ specialFiles, f ++ cs!"_perms" <:+ perm)) ∨
  (¬ (∀ c ∈ classes, NamedFor perm c) ∧ cs!"_socket_perms" <:+ perm ∧
    ((∀ c ∈ classes, cs!"netlink_" <+: c) ∨
     ((∀ c ∈ classes, cs!"_socket" <:+ c) ∧ ¬ cs!"netlink_socket_perms" <:+ perm)))

/-- S-009: a permission macro that does not fit. -/
def MismatchedMacro (classes : List Str) (perm : Str) : Prop :=
  cs!"_perms" <:+ perm ∧ ¬ MacroFits perm classes

end Selint.Spec
