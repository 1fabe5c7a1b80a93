import Verif.Lemmas.ParseSound
import Verif.Lemmas.ParseTables
import Verif.Props.Source
import Verif.Model.Whole
/-! # Parsed files are as the checks expect -/

namespace Selint
open Spec

/-- A file whose tree consists of comments. -/
theorem comments_build (root : Tree) (a : List Bool) (cs : List Nat) :
    cs.foldl (fun b c => b.add (leaf (.plain .comment none) c)) (⟨[root], a⟩ : Build) =
      ⟨(cs.map fun c => leaf (.plain .comment none) c).reverse ++ [root], a⟩ := by
  suffices ∀ ns : List Tree, cs.foldl (fun b c => b.add (leaf (.plain .comment none) c)) (⟨ns, a⟩ : Build) =
      ⟨(cs.map fun c => leaf (.plain .comment none) c).reverse ++ ns, a⟩ from this _
  induction cs with
  | nil => intro ns; rfl
  | cons c cs ih => intro ns; simp only [List.foldl_cons]; rw [show Build.add (⟨ns, a⟩ : Build) _ = ⟨_ :: ns, a⟩ from rfl, ih]; simp

theorem comments_teFile (c : Nat) (cs : List Nat) :
    TeFile ⟨leaf (.plain .teFile none) 0, [], (c :: cs).map fun c => leaf (.plain .comment none) c, []⟩ := by
  refine ⟨rfl, rfl, rfl, by simp, ?_, ?_⟩
  · refine (shapedList_iff _).2 fun t ht => ?_
    obtain ⟨n, -, rfl⟩ := List.mem_map.1 ht
    exact (leaf_node (d := .plain .comment none) rfl trivial).1
  · intro t ht
    obtain ⟨n, -, rfl⟩ := List.mem_map.1 ht
    exact (leaf_node (d := .plain .comment none) rfl trivial).2

theorem exec_unzip {f : SourceFile} {expected : PlainFlavor} {mod : Str} {m : Maps} {st : PState}
    (hc : CommandsOk f.tokens) (h : f.exec expected mod m = .ok (some st)) :
    ∃ a, st.loc.unzip = (buildFile f expected a).nodes.reverse := by
  obtain ⟨hu, hr, hb⟩ := SourceFile.exec_follows hc h
  refine ⟨st.rets.map (fun e => decide (e = .success)) ++ [], ?_⟩
  rw [hb []]
  simp [Loc.unzip, Loc.siblings, hu, hr, Loc.plug]

/-- The tree of every accepted te file is as the checks expect, unless the file consists of
class or `common` definitions. -/
theorem parsed_checkable_te {s : Str} {f : SourceFile} (hp : ParsesTo s f)
    (hlen : s.count '\n' < 2 ^ 32 - 1) (hne : ∀ d ls, f ≠ .av [] d ls) {mod : Str} {m : Maps}
    {st : PState} (h : f.exec .teFile mod m = .ok (some st)) : Checkable .teFile st.loc.unzip := by
  obtain ⟨hc, hn⟩ := hp.tokens
  refine ⟨parsed_ok (.inl rfl) hc h, fun _ => ?_⟩
  have hline : ∀ i ∈ Tree.preorderList st.loc.unzip, i.lineno < 2 ^ 32 := by
    obtain ⟨ts, hl, ha⟩ := hp
    obtain ⟨root, rest, e, h0, -, hr⟩ := C65_order hl ha h
    intro i hi
    rw [e] at hi
    rcases List.mem_cons.1 hi with rfl | hi
    · omega
    · have := (hr i hi).2.2; omega
  obtain ⟨a, hu⟩ := exec_unzip hc h
  cases f with
  | empty => exact .inl ⟨0, by rw [hu]; rfl⟩
  | iface cs d ls => simp [SourceFile.exec] at h
  | spt cs d ls => simp [SourceFile.exec] at h
  | comments c cs =>
    refine .inr ⟨_, _, ?_, comments_teFile c cs, rfl, hline⟩
    rw [hu]
    simp only [buildFile, comments_build]
    simp
  | av cs d ls =>
    cases cs with
    | nil => exact absurd rfl (hne d ls)
    | cons c cs =>
      refine .inr ⟨_, _, ?_, comments_teFile c cs, rfl, hline⟩
      rw [hu]
      simp only [buildFile, comments_build]
      simp
  | te cs hd body =>
    obtain ⟨root, rest, e, htf⟩ := parsed_teFile hc hn h
    refine .inr ⟨root, rest, e, htf, ?_, hline⟩
    have hs := sound_lines body (Build.add ⟨(cs.map fun c => leaf (.plain .comment none) c).reverse ++
      [leaf (.plain .teFile none) 0], a⟩ (headerNode hd)) (by
        refine (forestOk_iff _).2 fun t ht => ?_
        simp only [Build.add, List.mem_cons, List.mem_append, List.mem_reverse, List.mem_map,
          List.not_mem_nil, or_false] at ht
        rcases ht with rfl | ⟨n, -, rfl⟩ | rfl <;> simp [headerNode, leaf, TreeOk, ForestOk, NodeOk])
    obtain ⟨y, pre, hy⟩ := hs.2.2 _ _ rfl
    rw [hu] at e
    simp only [buildFile, comments_build] at e
    rw [hy] at e
    simp only [List.reverse_cons, List.reverse_append, List.reverse_nil, List.nil_append, List.reverse_reverse,
      List.cons_append, List.cons.injEq] at e
    rw [← e.1]; rfl

/-- The tree of every accepted if file is as the checks expect. -/
theorem parsed_checkable_if {s : Str} {f : SourceFile} (hp : ParsesTo s f) {mod : Str} {m : Maps}
    {st : PState} (h : f.exec .ifFile mod m = .ok (some st)) : Checkable .ifFile st.loc.unzip :=
  ⟨parsed_ok (.inr (.inl rfl)) hp.tokens.1 h, fun e => by cases e⟩

theorem parseFcLines_data {macros : List Str} {inps : List FcInput} {n : Nat} {ns : List FcNode}
    (h : parseFcLines macros inps n = .ok ns) :
    ∀ x ∈ ns, x.data = .plain .error none ∨ ∃ e, x.data = .fc e := by
  induction inps generalizing n ns with
  | nil => cases h; simp
  | cons inp inps ih =>
    simp only [parseFcLines] at h
    split at h
    · exact ih h
    · cases h1 : fcNode inp (n + 1) with
      | ub => rw [h1] at h; cases h
      | ok x =>
        rw [h1] at h
        cases h2 : parseFcLines macros inps (n + 1) with
        | ub => rw [h2] at h; cases h
        | ok ns' =>
          rw [h2] at h; cases h
          intro y hy
          rcases List.mem_cons.1 hy with rfl | hy
          · unfold fcNode at h1
            cases h3 : parseFcLine (lineBuf inp.text inp.tail) with
            | ub => rw [h3] at h1; cases h1
            | ok o =>
              rw [h3] at h1
              cases o with
              | none => cases h1; exact .inl rfl
              | some e => cases h1; exact .inr ⟨e, rfl⟩
          · exact ih h2 y hy

/-- The tree of every fc file is as the checks expect. -/
theorem parsed_checkable_fc {macros : List Str} {file : Option (List FcInput)} {ns : List FcNode}
    (h : parseFcFile macros file = .ok (some ns)) : Checkable .fcFile (fcForest ns) := by
  refine ⟨?_, fun e => by cases e⟩
  cases file with
  | none => cases h
  | some inps =>
    simp only [parseFcFile] at h
    cases h2 : parseFcLines macros inps 0 with
    | ub => rw [h2] at h; cases h
    | ok ns' =>
      rw [h2] at h; cases h
      refine (forestOk_iff _).2 fun t ht => ?_
      simp only [fcForest, List.map_cons, List.mem_cons, List.mem_map] at ht
      rcases ht with rfl | ⟨x, hx, rfl⟩
      · simp [TreeOk, ForestOk, NodeOk]
      · rcases parseFcLines_data h2 x hx with e | ⟨e', e⟩ <;> simp [TreeOk, ForestOk, NodeOk, e]

/-! ## The permission macros -/

/-- The insertion is of a kind that policy files make: not of a permission macro, a module status or
a layer. -/
def fromPolicy : MapOp → Bool
  | .permmacro _ _ | .mod _ _ | .layer _ _ => false
  | _ => true

theorem apply_fromPolicy {op : MapOp} (h : fromPolicy op = true) (m : Maps) :
    (op.apply m).permmacros = m.permmacros ∧ (op.apply m).mods = m.mods ∧ (op.apply m).modLayers = m.modLayers := by
  cases op with
  | permmacro => cases h
  | mod => cases h
  | layer => cases h
  | decl n md fl =>
    simp only [MapOp.apply, Maps.insertDecl]
    split
    · exact ⟨rfl, rfl, rfl⟩
    · cases fl <;> exact ⟨rfl, rfl, rfl⟩
  | transform n => simp only [MapOp.apply, Maps.markTransform]; split <;> exact ⟨rfl, rfl, rfl⟩
  | filetrans n => simp only [MapOp.apply, Maps.markFiletrans]; split <;> exact ⟨rfl, rfl, rfl⟩
  | role n => simp only [MapOp.apply, Maps.markRole]; split <;> exact ⟨rfl, rfl, rfl⟩
  | _ => exact ⟨rfl, rfl, rfl⟩

theorem foldl_fromPolicy {ops : List MapOp} (h : ∀ op ∈ ops, fromPolicy op = true) (m : Maps) :
    (ops.foldl MapOp.apply m).permmacros = m.permmacros ∧ (ops.foldl MapOp.apply m).mods = m.mods ∧
      (ops.foldl MapOp.apply m).modLayers = m.modLayers := by
  induction ops generalizing m with
  | nil => exact ⟨rfl, rfl, rfl⟩
  | cons op ops ih =>
    simp only [List.foldl_cons]
    obtain ⟨h1, h2, h3⟩ := apply_fromPolicy (h op (.head _)) m
    obtain ⟨h4, h5, h6⟩ := ih (fun o ho => h o (.tail _ ho)) (op.apply m)
    exact ⟨h4.trans h1, h5.trans h2, h6.trans h3⟩

theorem declOps_fromPolicy {mod : Str} {ds : List (DeclFlavor × Str)} :
    ∀ op ∈ declOps mod ds, fromPolicy op = true := by
  intro op ho
  obtain ⟨d, -, rfl⟩ := List.mem_map.1 ho
  rfl

theorem factsOps_fromPolicy {T : Assoc TemplateElem} {mod : Str} {fs : List Fact} {ops : List MapOp}
    (h : FactsOps T mod fs ops) : ∀ op ∈ ops, fromPolicy op = true := by
  induction fs generalizing ops with
  | nil => cases h; simp
  | cons f fs ih =>
    obtain ⟨a, b, rfl, ha, hb⟩ := h
    intro op ho
    rcases List.mem_append.1 ho with ho | ho
    · cases f with
      | calls c inside =>
        obtain ⟨e, out, -, rfl⟩ := ha
        rcases List.mem_append.1 ho with ho | ho
        · exact declOps_fromPolicy op ho
        · cases inside with
          | none => cases ho
          | some i =>
            simp only at ho
            split at ho
            · simp only [List.mem_singleton] at ho; rw [ho]; rfl
            · cases ho
      | transforms i => cases ha; simp only [List.mem_singleton] at ho; rw [ho]; rfl
      | filetrans i => cases ha; simp only [List.mem_singleton] at ho; rw [ho]; rfl
      | roles i => cases ha; simp only [List.mem_singleton] at ho; rw [ho]; rfl
      | declares => cases ha; exact declOps_fromPolicy op ho
      | aliases => cases ha; exact declOps_fromPolicy op ho
    · exact ih hb op ho

theorem defsOps_fromPolicy {mod : Str} {ds : List IfDef} {m : Maps} {ops : List MapOp}
    (h : DefsOps mod m ds ops) : ∀ op ∈ ops, fromPolicy op = true := by
  induction ds generalizing m ops with
  | nil => cases h; simp
  | cons d ds ih =>
    obtain ⟨a, b, rfl, ha, hb⟩ := h
    intro op ho
    rcases List.mem_append.1 ho with ho | ho
    · unfold DefOps at ha
      split at ha
      · subst ha
        simp only [List.mem_append, List.mem_cons, List.not_mem_nil, or_false, List.mem_flatMap,
          templateFactOps, List.mem_map] at ho
        rcases ho with (rfl | rfl) | ⟨f, -, ⟨d, -, rfl⟩ | ⟨c, -, rfl⟩⟩ <;> rfl
      · obtain ⟨a', rfl, ha⟩ := ha
        rcases List.mem_cons.1 ho with rfl | ho
        · rfl
        · exact factsOps_fromPolicy ha op ho
    · exact ih hb op ho

theorem fileOps_fromPolicy {f : SourceFile} (hf : ∀ cs d ds, f ≠ .spt cs d ds) {mod : Str} {m : Maps} {ops : List MapOp}
    (hops : FileOps m mod f ops) : ∀ op ∈ ops, fromPolicy op = true := by
  cases f with
  | te => exact factsOps_fromPolicy hops
  | iface => exact defsOps_fromPolicy hops
  | spt => exact absurd rfl (hf _ _ _)
  | empty => cases hops; simp
  | comments => cases hops; simp
  | av cs d ds =>
    cases hops
    intro op ho
    obtain ⟨o, -, ho⟩ := List.mem_flatMap.1 ho
    cases o with
    | none => cases ho
    | some d =>
      have hp : ∀ p : AvPerms, ∀ op ∈ avPermsOps p, fromPolicy op = true := by
        intro p op ho
        simp only [avPermsOps, List.mem_filterMap, Option.map_eq_some_iff] at ho
        obtain ⟨_, -, _, -, rfl⟩ := ho
        rfl
      cases d with
      | cls n p =>
        rcases List.mem_append.1 ho with ho | ho
        · exact hp p op ho
        · simp only [List.mem_singleton] at ho; rw [ho]; rfl
      | inheritsPerms n i p =>
        rcases List.mem_append.1 ho with ho | ho
        · exact hp p op ho
        · simp only [List.mem_singleton] at ho; rw [ho]; rfl
      | inherits n i =>
        simp only [Option.map_some, Option.getD_some, avOps, List.mem_singleton] at ho; rw [ho]; rfl
      | common n p => exact hp p op ho

/-- Parsing a te or if file does not change the permission macros. -/
theorem parsed_permmacros {f : SourceFile} {expected : PlainFlavor} (he : expected ≠ .sptFile) {mod : Str}
    {m : Maps} {st : PState} (hc : CommandsOk f.tokens) (h : f.exec expected mod m = .ok (some st)) :
    st.maps.permmacros = m.permmacros := by
  obtain ⟨ops, hops, e⟩ := file_ops hc h
  rw [e]
  refine (foldl_fromPolicy (fileOps_fromPolicy (fun cs d ds e => ?_) hops) m).1
  subst e
  simp [SourceFile.exec, he] at h

end Selint
