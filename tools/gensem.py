from genbridge import *
o2=[];w=o2.append
w('''import Verif.Proof.SqlGrammarDer
/-!
# From reductions of the generated parser to the grammar

If the arguments of a reduction stand for words of the grammar, the reduction succeeds and its result stands for
the concatenation.
-/

namespace Verif.Sql.Parser
open Grammar

/-- The category of a nonterminal of the parser; none for the nonterminals of optional parts. -/
def ntOf : List (Option Nt) := [
''')
inv={ntnum[n]:ln(n) for n in ntnum}
for i in range(79): w(f'  '+(f'some .{inv[i]}' if i in inv else 'none')+(',' if i<78 else '')+'\n')
w(''']

/-- The value of a category on the stack of the parser. -/
def wrap : (s : Nt) → Grammar.Ty s → Symbol
''')
for n,t,_ in G: w(f'  | .{ln(n)}, v => .variant{var[ntnum[n]]} v\n')
w('''  | .tok _, v => .variant0 v
  | .opt _, _ => .variant0 []

/-- The text of a word of kind `STRING_LIT` is quoted. -/
def Quoted (l : Lexeme) : Prop := l.1 = .STRING_LIT → ∃ s, l.2 = '\\'' :: (s ++ ['\\''])

/-- The value `v` on the stack stands for the words `w`. -/
def Sem : Sym → List Lexeme → Symbol → Prop
  | .t k, w, v => ∃ l : Lexeme, w = [l] ∧ code l.1 = k ∧ v = .variant0 l.2 ∧ Quoted l
  | .n A, w, v => match ntOf[A]? with
    | some (some s) => ∃ e : Grammar.Ty s, v = wrap s e ∧ Gr s w e
    | _ => False

/-- The values `vs` on the stack stand for the words `w`. -/
def Sems : List Sym → List Lexeme → List Symbol → Prop
  | [], w, vs => w = [] ∧ vs = []
  | x :: xs, w, vs => ∃ w₁ w₂ v vs', w = w₁ ++ w₂ ∧ vs = v :: vs' ∧ Sem x w₁ v ∧ Sems xs w₂ vs'

/-- The reduction of the production succeeds and gives a value for the words. -/
def ProdOk (p : Nat) : Prop := ∀ w vs, Sems (rhs p) w vs → ∃ v, Red p vs v ∧ Sem (.n (lhs p)) w v

theorem _root_.Verif.Sql.Grammar.Gr.cast {s w w'} {v : Grammar.Ty s} (h : Gr s w v) (e : w = w') : Gr s w' v := e ▸ h

''')
for p in range(223):
    if p not in sound: continue
    l,r=prods[p]
    pat=[];kinds_=[];args=[]
    for j,x in enumerate(r):
        if x[0]=='t': pat.append(f'w{j}, _, _, _, rfl, rfl, ⟨l{j}, rfl, hk{j}, rfl, hq{j}⟩')
        else: pat.append(f'w{j}, _, _, _, rfl, rfl, ⟨e{j}, rfl, h{j}⟩')
    w(f'theorem prod_{p} : ProdOk {p} := by\n  intro w vs h\n')
    w(f"  obtain ⟨{', '.join(pat+['rfl, rfl'])}⟩ := h\n")
    for j,x in enumerate(r):
        if x[0]=='t':
            w(f'  obtain ⟨k{j}, t{j}⟩ := l{j}\n  obtain rfl := code_inj (k\' := .{kinds[x[1]]}) hk{j}\n')
    def term(c):
        ctor,els,choice,cond,val=c
        a=[];j=0
        for i,(kd,e,v) in enumerate(els):
            if kd=='tok': a.insert(0,f'({v or "t"+str(i)} := t{j})');j+=1
            elif kd=='nt': a.append(f'h{j}');j+=1
            elif choice[i]:
                a.append(f'(.optSome (.tok (t := t{j})))' if kd=='opttok' else f'(.optSome h{j})');j+=1
            else: a.append('.optNone')
        return ctor,a
    cs=sound[p]
    if p==190:
        w('''  obtain ⟨s, hs⟩ := hq0 rfl
  simp only at hs
  subst hs
  exact ⟨_, ⟨_, _, _, rfl, fun st => by
    simp [reduce190, pop0, action147, stringBody_quoted, bind, Except.bind]; rfl⟩, s, rfl, .stringLiteral_1⟩

''')
    elif p==141:
        w('''  match e1, h1 with
  | [e], h1 => exact ⟨_, ⟨_, _, _, rfl, fun st => rfl⟩, e, rfl, by simpa using Gr.primaryExpression_1 h1⟩
  | [], h1 => exact ⟨_, ⟨_, _, _, rfl, fun st => rfl⟩, .tuple [], rfl,
      by simpa using Gr.primaryExpression_2 h1 (by simp)⟩
  | a :: b :: r, h1 => exact ⟨_, ⟨_, _, _, rfl, fun st => rfl⟩, .tuple (a :: b :: r), rfl,
      by simpa using Gr.primaryExpression_2 h1 (by simp)⟩

''')
    else:
        assert len(cs)==1,(p,cs)
        ctor,a=term(cs[0])
        g=f'Gr.{ctor} '+' '.join(a)
        w(f'  refine ⟨_, ⟨_, _, _, rfl, fun st => rfl⟩, _, rfl, ?_⟩\n  exact ({g.strip()}).cast (by simp)\n\n')
w('''theorem prods_ok : ∀ p, p < 223 → optMask.testBit (lhs p) = false → ProdOk p := by
  have h : ∀ b, b < 14 → ∀ i, i < 16 → 16 * b + i < 223 → optMask.testBit (lhs (16 * b + i)) = false →
      ProdOk (16 * b + i) := by
    intro b hb
    match b, hb with
''')
for b in range(14):
    w(f'    | {b}, _ =>\n      intro i hi\n      match i, hi with\n')
    for i in range(16):
        p=16*b+i
        if p>=223: w(f'      | {i}, _ => intro h; omega\n')
        elif p in sound: w(f'      | {i}, _ => exact fun _ _ => prod_{p}\n')
        else: w(f'      | {i}, _ => intro _ h; exact absurd h (by decide)\n')
    w('      | n + 16, h => exact absurd h (by omega)\n')
w('    | n + 14, h => exact absurd h (by omega)\n')
w('''  intro p hp ho
  have e : 16 * (p / 16) + p % 16 = p := by omega
  have := h (p / 16) (by omega) (p % 16) (by omega)
  rw [e] at this
  exact this hp ho

end Verif.Sql.Parser
''')
open('/verif/lean/Verif/Proof/SqlGrammarSem.lean','w').write(''.join(o2))
