import Verif.Spec.SqlEval
/-!
# What column names mean in a query
-/

namespace Verif.Sql

/-- A relation of a FROM clause: its name and its columns. -/
abbrev Relation := Name × List (Attribute Name)

/-- The name under which a table of a FROM clause is known: its alias, else the last part of its name. -/
def KnownAs (q : List Name) (alias : Option Name) (n : Name) : Prop :=
  alias = some n ∨ (alias = none ∧ q.getLast? = some n)

mutual
/-- The relations that an element of a FROM clause makes known, from left to right, and all its columns.
A subquery has columns but makes no relation known (see C83). -/
inductive Binds (up : Char → List Char) (ctx : SetContext Name) :
    TableExpr Name → List Relation → List (Attribute Name) → Prop
  | named {q alias n typ} (hr : Resolves up ctx q typ) (hn : KnownAs q alias n) :
      Binds up ctx (.named q alias) [(n, typ.attributes)] typ.attributes
  | select {s alias typ} (h : inferSelect (nameOps up) ctx s = .ok typ) :
      Binds up ctx (.select s alias) [] typ.attributes
  | join {l r op c ls rs las ras} (hl : Binds up ctx l ls las) (hr : Binds up ctx r rs ras) :
      Binds up ctx (.join l r op c) (ls ++ rs) (las ++ ras)
end

/-- The relations and columns of a FROM clause. -/
inductive BindsAll (up : Char → List Char) (ctx : SetContext Name) :
    List (TableExpr Name) → List Relation → List (Attribute Name) → Prop
  | nil : BindsAll up ctx [] [] []
  | cons {t ts rs rs' as as'} (h : Binds up ctx t rs as) (hs : BindsAll up ctx ts rs' as') :
      BindsAll up ctx (t :: ts) (rs ++ rs') (as ++ as')

/-- The columns of this name. -/
def columnsCalled (up : Char → List Char) (c : Name) (as : List (Attribute Name)) : List (Attribute Name) :=
  as.filter fun a => sameName up a.name c

/-- What a column name means where these relations are known.  `c` is the only column of that name, unless
a relation is called so; `r.c` is the column of that name of the relation `r`, the last if there are
several. -/
inductive Denotes (up : Char → List Char) (rels : List Relation) : List Name → Attribute Name → Prop
  | column {c a} (hr : ∀ r ∈ rels, ¬ SameName up r.1 c)
      (hc : columnsCalled up c (rels.flatMap (·.2)) = [a]) : Denotes up rels [c] a
  | qualified {r n c a} (hr : r ∈ rels) (hn : SameName up r.1 n)
      (hc : (columnsCalled up c r.2).getLast? = some a) : Denotes up rels [n, c] a

end Verif.Sql
