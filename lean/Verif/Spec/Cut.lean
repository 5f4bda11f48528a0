import Verif.Spec.Grammar
/-
Tokens without those that CROSS JOIN drops.
-/
namespace Verif.Spec

/-- `Cut ts us`: `us` are the tokens `ts` without some blocks, each well nested and directly before the keyword CROSS. -/
inductive Cut : List Token → List Token → Prop
  | nil : Cut [] []
  | keep (t : Token) {ts us : List Token} : Cut ts us → Cut (t :: ts) (t :: us)
  | drop (block : List Token) (c : Token) {ts us : List Token} : anything block → kwd .CROSS [c] → Cut (c :: ts) us →
      Cut (block ++ c :: ts) us

end Verif.Spec
