import Verif.Model.Main
/-! # Specification: what a command line means

From the usage text (main.c:46-84) and the conventions for GNU programs. -/

namespace Selint.Spec

/-- The letters for options without an argument. -/
def flagLetters : List (Char × Opt) :=
  [('E', .onlyEnabled), ('F', .fail), ('h', .help), ('s', .source), ('S', .summary), ('r', .recursive),
   ('v', .verbose), ('V', .version), ('m', .modulesConf)]

/-- The letters for options with an argument. -/
def argLetters : List (Char × (Str → Opt)) :=
  [('c', .config), ('d', .disable), ('e', .enable), ('l', .level)]

/-- The names for options without an argument. -/
def flagNames : List (Str × Opt) :=
  [(cs!"debug-parser", .debugParser), (cs!"only-enabled", .onlyEnabled), (cs!"fail", .fail), (cs!"help", .help),
   (cs!"scan-hidden-dirs", .scanHiddenDirs), (cs!"source", .source), (cs!"summary", .summary),
   (cs!"summary-only", .summaryOnly), (cs!"recursive", .recursive), (cs!"verbose", .verbose), (cs!"version", .version)]

/-- The names for options with an argument. -/
def argNames : List (Str × (Str → Opt)) :=
  [(cs!"config", .config), (cs!"color", .color), (cs!"context", .context), (cs!"disable", .disable),
   (cs!"enable", .enable), (cs!"level", .level), (cs!"modules-conf", fun _ => .modulesConf)]

/-- The names of options. -/
def optionNames : List Str := flagNames.map (·.1) ++ argNames.map (·.1)

/-- A name may be cut short as long as only one name begins that way. -/
def StandsFor (s name : Str) : Prop :=
  s = name ∨ (s <+: name ∧ ∀ n ∈ optionNames, s <+: n → n = name)

/-- What a command line means: options, and paths. -/
inductive Means : List Str → List Opt → List Str → Prop
  | nothing : Means [] [] []
  /-- Two dashes end the options. -/
  | dashes (ps : List Str) : Means (cs!"--" :: ps) [] ps
  /-- A single dash and what does not begin with a dash are paths. -/
  | path {a : Str} {rest : List Str} {os : List Opt} {ps : List Str} (h : a = cs!"-" ∨ a.head? ≠ some '-')
      (m : Means rest os ps) : Means (a :: rest) os (a :: ps)
  /-- Letters after a dash. -/
  | letters {fs : List (Char × Opt)} {rest : List Str} {os : List Opt} {ps : List Str} (ne : fs ≠ [])
      (h : ∀ f ∈ fs, f ∈ flagLetters) (m : Means rest os ps) :
      Means (('-' :: fs.map (·.1)) :: rest) (fs.map (·.2) ++ os) ps
  /-- The last letter may take the rest as its argument, … -/
  | attached {fs : List (Char × Opt)} {c : Char} {mk : Str → Opt} {arg : Str} {rest : List Str} {os : List Opt}
      {ps : List Str} (h : ∀ f ∈ fs, f ∈ flagLetters) (hc : (c, mk) ∈ argLetters) (ne : arg ≠ [])
      (m : Means rest os ps) :
      Means (('-' :: (fs.map (·.1) ++ c :: arg)) :: rest) (fs.map (·.2) ++ mk arg :: os) ps
  /-- … or, if nothing is left, what comes next. -/
  | separate {fs : List (Char × Opt)} {c : Char} {mk : Str → Opt} {arg : Str} {rest : List Str} {os : List Opt}
      {ps : List Str} (h : ∀ f ∈ fs, f ∈ flagLetters) (hc : (c, mk) ∈ argLetters) (m : Means rest os ps) :
      Means (('-' :: (fs.map (·.1) ++ [c])) :: arg :: rest) (fs.map (·.2) ++ mk arg :: os) ps
  /-- A name after two dashes, … -/
  | name {s n : Str} {o : Opt} {rest : List Str} {os : List Opt} {ps : List Str} (hn : (n, o) ∈ flagNames)
      (hs : StandsFor s n) (m : Means rest os ps) : Means ((cs!"--" ++ s) :: rest) (o :: os) ps
  /-- … with an argument after an equals sign … -/
  | equals {s n : Str} {mk : Str → Opt} {arg : Str} {rest : List Str} {os : List Opt} {ps : List Str}
      (hn : (n, mk) ∈ argNames) (hs : StandsFor s n) (m : Means rest os ps) :
      Means ((cs!"--" ++ s ++ cs!"=" ++ arg) :: rest) (mk arg :: os) ps
  /-- … or next. -/
  | next {s n : Str} {mk : Str → Opt} {arg : Str} {rest : List Str} {os : List Opt} {ps : List Str}
      (hn : (n, mk) ∈ argNames) (hs : StandsFor s n) (m : Means rest os ps) :
      Means ((cs!"--" ++ s) :: arg :: rest) (mk arg :: os) ps

end Selint.Spec
