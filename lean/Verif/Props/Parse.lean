import Verif.Lemmas.ParseGrown
import Verif.Lemmas.ParseShape
import Verif.Props.Heap
/-! # C12: the tree mirrors the source -/

namespace Selint

open Spec

/-- **C12**, with every detail: for every derivation of a policy file that is accepted, the
cursor ends at the top level with nothing after it, and the tree is the one built from the
derivation, where `selint-disable` commands mark the node before them and exactly the calls
whose expansion failed have no node. No answer is used twice or left over: the equation
holds whatever answers follow. -/
theorem C12_tree {f : SourceFile} {expected : PlainFlavor} {mod : Str} {m : Maps} {st : PState}
    (hc : CommandsOk f.tokens) (h : f.exec expected mod m = .ok (some st)) :
    st.loc.ups = [] ∧ st.loc.rights = [] ∧
      ∀ more, ∃ ns, buildFile f expected (st.rets.map (fun e => decide (e = .success)) ++ more) =
        ⟨ns, more⟩ ∧ st.loc.unzip = ns.reverse := by
  obtain ⟨hu, hr, hn⟩ := SourceFile.exec_follows hc h
  refine ⟨hu, hr, fun more => ⟨_, hn more, ?_⟩⟩
  simp [Loc.unzip, Loc.siblings, hu, hr, Loc.plug]

/-- **C12**: for every derivation of a policy file that is accepted and in which every call
could be expanded, the tree, apart from the exceptions, is exactly what `fileNodes` says: the
statements in source order, each block's statements and nothing else as the children of the
block's node after one start marker. Parsing ends at the top level, where it began. -/
theorem C12_order {f : SourceFile} {expected : PlainFlavor} {mod : Str} {m : Maps} {st : PState}
    (hc : CommandsOk f.tokens) (h : f.exec expected mod m = .ok (some st))
    (hcalls : ∀ e ∈ st.rets, e = .success) :
    bareList st.loc.unzip = fileNodes expected f ∧ st.loc.ups = [] := by
  obtain ⟨hu, _, hn⟩ := C12_tree hc h
  obtain ⟨ns, hb, hz⟩ := hn []
  refine ⟨?_, hu⟩
  have := buildFile_nodes f expected (st.rets.map (fun e => decide (e = .success)) ++ []) (by
    intro a ha
    simp only [List.append_nil, List.mem_map] at ha
    obtain ⟨e, he, rfl⟩ := ha
    simp [hcalls e he])
  rw [hb] at this
  rw [hz, this]

/-- **C12**, depth: any sequence of lines, run at any place of a tree where nothing follows
the cursor, ends at the same nesting depth, below the same nodes. -/
theorem C12_depth {d : Lines} {st st' : PState} (hr : st.loc.rights = []) (hc : CommandsOk d.tokens)
    (h : d.exec st = .ok st') : st'.loc.ups = st.loc.ups ∧ st'.loc.rights = [] :=
  ⟨(d.exec_follows st st' hr hc h).ups, (d.exec_follows st st' hr hc h).rights⟩

/-- **C12**, on the heap: what the parser does to the tree for an accepted file is a sequence
of pointer operations; whatever distinct addresses `malloc` returns, the heap then holds a
well-formed linked tree with the nodes of `C12_tree`. -/
theorem C12_heap {f : SourceFile} {expected : PlainFlavor} {mod : Str} {m : Maps} {st : PState}
    (h : f.exec expected mod m = .ok (some st)) :
    ∃ ops : List TreeOp, ∀ (run : List (TreeOp × Ptr × Ptr)) (root : Ptr) (fuel : Nat),
      run.map (·.1) = ops → (root :: allocated run).Nodup → 2 * run.length + 1 ≤ fuel →
      ∃ (heap : Heap) (cur : Ptr) (forest : Forest),
        HeapCursor.run fuel ⟨freshHeap root ⟨.plain expected none, none, 0⟩, root⟩ run =
          .ok ⟨heap, cur⟩ ∧
        Holds heap forest ∧ forest.head = some root ∧ forest.trees = st.loc.unzip := by
  obtain ⟨ops, ho⟩ := Grown.file h
  refine ⟨ops, ?_⟩
  intro run root fuel hrun hnd hfuel
  obtain ⟨heap, cur, forest, e, hh, _, hhead, ht, _⟩ :=
    C10_parser root ⟨.plain expected none, none, 0⟩ run fuel hnd hfuel
  refine ⟨heap, cur, forest, e, hh, hhead, ?_⟩
  rw [ht, hrun, ho]
  rfl

/-- **C12**, shape: the tree of every te file meets the conditions (`Spec.TeFile`) under which
the results about the ordering check are proved: every block starts with its one marker, the
children of a declaration are its aliases, rules have sources and targets. -/
theorem C12_shape {cs : List Nat} {hd : Header} {body : Lines} {mod : Str} {m : Maps} {st : PState}
    (hc : CommandsOk (SourceFile.te cs hd body).tokens)
    (hn : NamesOk (SourceFile.te cs hd body).tokens)
    (h : (SourceFile.te cs hd body).exec .teFile mod m = .ok (some st)) :
    ∃ root rest, st.loc.unzip = root :: rest ∧ TeFile ⟨root, [], rest, []⟩ :=
  parsed_teFile hc hn h

/-! ## A file that meets the hypotheses -/

/-- ```
# comment
policy_module(foo, 1.0)
type foo_t alias bar_t;
optional_policy(`
	allow foo_t bar_t:file read; #selint-disable:W-001
	gen_require(`
		type a_t, b_t;
	')
',`
	ifdef(`x',`
		foo_call(foo_t)
	')
')
``` -/
def parseExample : SourceFile :=
  .te [1] ⟨2, cs!"foo", true, false, cs!"1.0"⟩
    (.more (.one (.bare (.simple 3 (.decl (.typeAlias cs!"foo_t" (.item (.word cs!"bar_t")))))))
      (.bare (.optionalElse 4 none
        (.more (.one (.withCommand (.simple 5 (.rule .allow (.item (.word cs!"foo_t"))
            (.item (.word cs!"bar_t")) (.item (.word cs!"file")) (.item (.word cs!"read"))))
            cs!"#selint-disable:W-001"))
          (.bare (.genRequire 6 none none (.one (.bare (.decls 7 .type .type rfl ⟨cs!"a_t", [cs!"b_t"]⟩))))))
        9 (.one (.bare (.ifdef 10 false cs!"x" (.one 10 (.quoted (.one (.bare (.simple 11
          (.call cs!"foo_call" (some ⟨.xperm (.item (.word cs!"foo_t")), []⟩)))))))))))))

example : CommandsOk parseExample.tokens ∧ NamesOk parseExample.tokens := by decide

/-- The tree of the example: the comment, the header, the declaration with its alias, the
optional block with the rule and the require block, and the else block with the `ifdef`. -/
example : ∃ st, parseExample.exec .teFile cs!"foo" {} = .ok (some st) ∧
    (∀ e ∈ st.rets, e = .success) ∧ st.rets.length = 1 ∧
    st.loc.unzip = [
      leaf (.plain .teFile none) 0,
      leaf (.plain .comment none) 1,
      leaf (.header ⟨.macro, cs!"foo"⟩) 2,
      .mk ⟨.decl ⟨.type, cs!"foo_t", []⟩, none, 3⟩ [leaf (.plain .alias (some cs!"bar_t")) 3],
      blockNode (.plain .optionalPolicy none) 4 [
        .mk ⟨.av ⟨.allow, [cs!"foo_t"], [cs!"bar_t"], [cs!"file"], [cs!"read"]⟩, some cs!"W-001", 5⟩ [],
        blockNode (.genReq false) 6 [leaf (.decl ⟨.type, cs!"a_t", []⟩) 7, leaf (.decl ⟨.type, cs!"b_t", []⟩) 7]],
      blockNode (.plain .optionalElse none) 9 [
        blockNode (.plain .ifdef none) 10 [
          blockNode (.plain .m4Arg none) 10 [leaf (.ifCall ⟨cs!"foo_call", [(cs!"foo_t", false)]⟩) 11]]]] :=
  ⟨_, by with_unfolding_all rfl, by with_unfolding_all decide, by with_unfolding_all rfl,
    by with_unfolding_all rfl⟩

/-- The call of a template that calls itself gets no node, and the command after it marks the
node before it. -/
def parseDropExample : SourceFile :=
  .te [] ⟨1, cs!"foo", true, false, cs!"1.0"⟩
    (.more (.one (.bare (.simple 2 .semicolon)))
      (.withCommand (.simple 3 (.call cs!"tmpl" (some ⟨.quoted cs!"a", []⟩))) cs!"#selint-disable:C-001"))

/-- A template whose body calls the template itself. -/
def parseDropMaps : Maps :=
  (({} : Maps).insertTemplate cs!"tmpl").insertTemplateCall cs!"tmpl" ⟨cs!"tmpl", [(cs!"a", false)]⟩

example : CommandsOk parseDropExample.tokens := by decide

example : ∃ st, parseDropExample.exec .teFile cs!"foo" parseDropMaps = .ok (some st) ∧
    st.rets = [.ifCallLoop] ∧
    st.loc.unzip = [
      leaf (.plain .teFile none) 0,
      leaf (.header ⟨.macro, cs!"foo"⟩) 1,
      .mk ⟨.plain .semicolon none, some cs!"C-001", 2⟩ []] :=
  ⟨_, by with_unfolding_all rfl, by with_unfolding_all rfl, by with_unfolding_all rfl⟩

end Selint
