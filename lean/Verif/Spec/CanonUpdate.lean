import Verif.Spec.CanonWhere

/-!
# Canonical texts of updates
-/

namespace NomSparql

/-- `SILENT` and white space, or nothing. -/
def cSilent : Bool → Lang := rFlag (kw c!"silent" ⬝ Ws1)

/-- `GRAPH g` -/
def cGraphRef (i : Iri) : Lang := kw c!"graph" ⬝ Ws1 ⬝ cIri i

/-- The text does not begin with `default` in any letter case. -/
def NoDefault (s : Str) : Prop := ∀ k t, s = k ++ t → ¬ CaseVariant c!"default" k

/-- `DEFAULT`, `GRAPH g` or `g` (not beginning with `default`, see C46). -/
def cGraphOrDefault : GraphOrDefault → Lang
  | .default => kw c!"default"
  | .graph i => fun s => cGraphRef i s ∨ cIri i s ∧ NoDefault s

/-- `DEFAULT`, `NAMED`, `ALL` or `GRAPH g`. -/
def cGraphRefAll : GraphRefAll → Lang
  | .default => kw c!"default"
  | .named => kw c!"named"
  | .all => kw c!"all"
  | .graphRef i => cGraphRef i

/-- `[SILENT] g TO h` -/
def cFromTo (silent : Bool) (g h : GraphOrDefault) : Lang :=
  cSilent silent ⬝ cGraphOrDefault g ⬝ Ws1 ⬝ kw c!"to" ⬝ Ws1 ⬝ cGraphOrDefault h

/-- One statement; `cG` are the texts of groups. -/
def cStatement (cG : GroupGraphPattern → Lang) : UpdateStatement → Lang
  | .load s => kw c!"load" ⬝ Ws1 ⬝ cSilent s.silent ⬝ cIri s.iri ⬝ rOpt (fun g => Ws1 ⬝ kw c!"into" ⬝ Ws1 ⬝ cGraphRef g) s.graphRef
  | .clear s => kw c!"clear" ⬝ Ws1 ⬝ cSilent s.silent ⬝ cGraphRefAll s.graphRefAll
  | .drop s => kw c!"drop" ⬝ Ws1 ⬝ cSilent s.silent ⬝ cGraphRefAll s.graphRefAll
  | .create s => kw c!"create" ⬝ Ws1 ⬝ cSilent s.silent ⬝ cGraphRef s.graphRef
  | .copy s => kw c!"copy" ⬝ Ws1 ⬝ cFromTo s.silent s.from' s.to
  | .add _ => fun _ => False
  | .move _ => fun _ => False
  | .insertData q => kw c!"insert" ⬝ Ws1 ⬝ kw c!"data" ⬝ Ws1 ⬝ cQuads q
  | .deleteData q => kw c!"delete" ⬝ Ws1 ⬝ kw c!"data" ⬝ Ws1 ⬝ cQuads q
  | .deleteWhere q => kw c!"delete" ⬝ Ws1 ⬝ kw c!"where" ⬝ Ws1 ⬝ cQuads q
  | .modify ⟨none, .insert q, l, G⟩ =>
      kw c!"insert" ⬝ Ws1 ⬝ cQuads q ⬝ Ws ⬝ Sep1 Ws1 cUsingClause l ⬝ Ws1 ⬝ kw c!"where" ⬝ Ws1 ⬝ cG G
  | .modify _ => fun _ => False

/-- `prologue statement ; prologue statement ; ...` -/
def cUpdate (cG : GroupGraphPattern → Lang) : Update → Lang
  | .mk p none none => cPrologue p
  | .mk p (some st) none => cPrologue p ⬝ Ws ⬝ cStatement cG st
  | .mk p (some st) (some u) => cPrologue p ⬝ Ws ⬝ cStatement cG st ⬝ Ws ⬝ lit c!";" ⬝ Ws ⬝ cUpdate cG u
  | .mk _ none (some _) => fun _ => False

/-- A statement can end here: white space, then the end or a semicolon. -/
def StmtEnd (r : Str) : Prop := ∃ w x, r = w ++ x ∧ Ws w ∧ (x = [] ∨ ∃ t, x = ';' :: t)

end NomSparql
