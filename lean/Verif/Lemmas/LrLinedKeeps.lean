import Verif.Lemmas.LrLined
import Verif.Lemmas.BlockSound
/-!
# Tactics for the productions, with lines
-/

namespace Selint
namespace Lr

/-- The tokens agree, the lines left out. -/
syntax "lr_ltoks" (" [" term,* "]")? : tactic
macro_rules
  | `(tactic| lr_ltoks) => `(tactic| lr_ltoks [])
  | `(tactic| lr_ltoks [$hs,*]) => `(tactic| first
    | rfl
    | (simp [Located.toks_append, Located.toks_cons, Located.toks_nil, tComma, $[$hs:term],*]; done)
    | (simp only [Stmt.At, Located.toks_append, Located.toks_cons, Located.toks_nil,
        $[$hs:term],*]; lr_toks)
    | (simp only [Located.toks_append, Located.toks_cons, Located.toks_nil, $[$hs:term],*]; lr_toks)
    | lr_toks [Located.toks_append, Located.toks_cons, Located.toks_nil, $[$hs:term],*])

/-- The tokens are divided as the derivation says. -/
macro "lr_split" : tactic => `(tactic| first
  | rfl
  | (simp; done)
  | simp [commentsAt, tOpen, tClose, tComma, tSemi, tColon, tTick, tQuote, tLeft, tRight])

/-- The last line is that of the last token. -/
macro "lr_last" : tactic => `(tactic| simp [Located.last, Located.lines])

end Lr
end Selint
