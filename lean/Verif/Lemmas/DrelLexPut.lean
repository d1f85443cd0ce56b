import Verif.Lemmas.DrelLexAll
/-! # The tokens of expressions and programs can be written -/
namespace Verif
namespace Drel
open LR DrelPy
set_option linter.unusedSectionVars false

/-- Tokens that can be put before any others. -/
def Plain (w : List (Tok Val)) : Prop := ∀ d r, Writable d r → Writable d (w ++ r)

theorem plain_nil : Plain [] := fun _ _ h => h

theorem plain_append {a b : List (Tok Val)} (ha : Plain a) (hb : Plain b) : Plain (a ++ b) := fun d r h => by
  rw [List.append_assoc]
  exact ha d _ (hb d r h)

/-- A token that is neither a parenthesis nor an end of line nor `else`. -/
theorem plain_tok {k : Nat} {s : Str} (hs : Written k s) (h1 : k ≠ K.openParen) (h2 : k ≠ K.closeParen) (h3 : k ≠ K.newline) (h4 : k ≠ K.else_) {w : List (Tok Val)}
    (hw : Plain w) : Plain ((k, .str s) :: w) := fun d r h => by
  refine ⟨⟨s, rfl, hs⟩, ⟨fun e => absurd e h3, fun e => absurd e h4⟩, ?_⟩
  show if k = K.openParen then _ else _
  rw [if_neg h1, if_neg h2]
  exact ⟨fun e => absurd e h3, hw d r h⟩

theorem written_sign {k : Nat} {w : String} (h : (k, w) ∈ signs) : Written k w.toList := .inl ⟨w, h, rfl⟩

theorem sign_kinds : signs.all (fun p => p.1 != K.openParen && (p.1 != K.closeParen && (p.1 != K.newline && p.1 != K.else_))) = true := by decide +kernel

theorem plain_sign {k : Nat} {s : String} (h : (k, s) ∈ signs) {w : List (Tok Val)} (hw : Plain w) : Plain (tk k s :: w) := by
  have := List.all_eq_true.mp sign_kinds _ h
  simp only [Bool.and_eq_true, bne_iff_ne] at this
  exact plain_tok (written_sign h) this.1 this.2.1 this.2.2.1 this.2.2.2 hw

theorem plain_name {s : Str} (h : IsName s) {w : List (Tok Val)} (hw : Plain w) : Plain ((K.id, .str s) :: w) :=
  plain_tok (.inr (.inr (.inr (.inr (.inr (.inl ⟨rfl, h⟩)))))) (by decide) (by decide) (by decide) (by decide) hw

theorem plain_tag {s : Str} (h : IsTag s) {w : List (Tok Val)} (hw : Plain w) : Plain ((K.itemTag, .str s) :: w) :=
  plain_tok (.inr (.inr (.inr (.inr (.inr (.inr (.inl ⟨rfl, h⟩))))))) (by decide) (by decide) (by decide) (by decide) hw

theorem plain_short {s : Str} (h : IsShort s) {w : List (Tok Val)} (hw : Plain w) : Plain ((K.shortString, .str s) :: w) :=
  plain_tok (.inr (.inr (.inr (.inr (.inr (.inr (.inr (.inr (.inr (.inr ⟨rfl, h⟩)))))))))) (by decide) (by decide) (by decide) (by decide) hw

/-- Parentheses around such tokens. -/
theorem plain_parens {a w : List (Tok Val)} (ha : Plain a) (hw : Plain w) : Plain (tk K.openParen "(" :: (a ++ tk K.closeParen ")" :: w)) := fun d r h => by
  refine ⟨⟨_, rfl, .inr (.inl ⟨rfl, rfl⟩)⟩, ⟨fun e => absurd e (by decide), fun e => absurd e (by decide)⟩, ?_⟩
  show if K.openParen = K.openParen then _ else _
  rw [if_pos rfl]
  show Writable (d + 1) (a ++ tk K.closeParen ")" :: w ++ r)
  rw [List.append_assoc]
  apply ha
  refine ⟨⟨_, rfl, .inr (.inr (.inl ⟨rfl, rfl⟩))⟩, ⟨fun e => absurd e (by decide), fun e => absurd e (by decide)⟩, ?_⟩
  show if K.closeParen = K.openParen then _ else _
  rw [if_neg (by decide), if_pos rfl]
  exact ⟨Nat.succ_pos d, hw d r h⟩

theorem plain_op (o : Op) : Plain (opToks o) := by
  cases o <;> first | exact plain_sign (by decide) plain_nil | exact plain_sign (by decide) (plain_sign (by decide) plain_nil)

section
variable {kind : Str → Nat} (hkind : ∀ s, kind s ∈ literalKinds)
include hkind

theorem plain_lit {s : Str} (h : Written (kind s) s) : Plain [(kind s, .str s)] := by
  have hl : literalKinds.all (fun k => k != K.openParen && (k != K.closeParen && (k != K.newline && k != K.else_))) = true := by decide
  have := List.all_eq_true.mp hl _ (hkind s)
  simp only [Bool.and_eq_true, bne_iff_ne] at this
  exact plain_tok h this.1 this.2.1 this.2.2.1 this.2.2.2 plain_nil

mutual
theorem plain_put : ∀ e : Expr, Spelled kind e → Plain (put kind e)
  | .name s, h => plain_name h plain_nil
  | .tag s, h => plain_tag h plain_nil
  | .lit s, h => plain_lit hkind h
  | .group es, h => plain_parens (plain_list es h) plain_nil
  | .list es, h => plain_sign (by decide) (plain_append (plain_list es h) (plain_sign (by decide) plain_nil))
  | .table ks vs, h => plain_sign (by decide) (plain_append (plain_table ks vs h.1 h.2) (plain_sign (by decide) plain_nil))
  | .attr p a, h => plain_append (plain_put p h.1) (plain_sign (by decide) (plain_name h.2 plain_nil))
  | .sub p i, h => plain_append (plain_put p h.1) (plain_sign (by decide) (plain_append (plain_put i h.2) (plain_sign (by decide) plain_nil)))
  | .items p es, h => plain_append (plain_put p h.1) (plain_sign (by decide) (plain_append (plain_list es h.2) (plain_sign (by decide) plain_nil)))
  | .slice p [], h => plain_append (plain_put p h.1) (plain_sign (by decide) (plain_append (plain_sign (by decide) plain_nil) (plain_sign (by decide) plain_nil)))
  | .slice p [a], h => plain_append (plain_put p h.1) (plain_sign (by decide)
      (plain_append (plain_append (plain_put a h.2.1) (plain_sign (by decide) plain_nil)) (plain_sign (by decide) plain_nil)))
  | .slice p [a, b], h => plain_append (plain_put p h.1) (plain_sign (by decide)
      (plain_append (plain_append (plain_put a h.2.1) (plain_sign (by decide) (plain_put b h.2.2.1))) (plain_sign (by decide) plain_nil)))
  | .slice p (a :: b :: c :: _), h => plain_append (plain_put p h.1) (plain_sign (by decide)
      (plain_append (plain_append (plain_put a h.2.1) (plain_sign (by decide) (plain_append (plain_put b h.2.2.1) (plain_sign (by decide) (plain_put c h.2.2.2.1)))))
        (plain_sign (by decide) plain_nil)))
  | .slices p, h => plain_put p h
  | .int0, _ => plain_nil
  | .call f args, h => plain_name h.1 (plain_parens (plain_list args h.2) plain_nil)
  | .op o a b, h => plain_append (plain_put a h.1) (plain_append (plain_op o) (plain_put b h.2))
  | .sign true a, h => plain_sign (by decide) (plain_put a h)
  | .sign false a, h => plain_sign (by decide) (plain_put a h)
  | .not a, h => plain_sign (by decide) (plain_put a h)
theorem plain_list : ∀ es : List Expr, SpelledAll kind es → Plain (putList kind es)
  | [], _ => plain_nil
  | e :: es, h => plain_append (plain_put e h.1) (plain_more es h.2)
theorem plain_more : ∀ es : List Expr, SpelledAll kind es → Plain (putMore kind es)
  | [], _ => plain_nil
  | e :: es, h => plain_sign (by decide) (plain_append (plain_put e h.1) (plain_more es h.2))
theorem plain_table : ∀ (ks : List Str) (es : List Expr), (∀ k ∈ ks, IsShort k) → SpelledAll kind es → Plain (putTable kind ks es)
  | k :: ks, e :: es, hk, h => plain_short (hk k (by simp)) (plain_sign (by decide) (plain_append (plain_put e h.1)
      (plain_entries ks es (fun k' h' => hk k' (List.mem_cons_of_mem _ h')) h.2)))
  | [], [], _, _ => plain_nil
  | [], _ :: _, _, _ => plain_nil
  | _ :: _, [], _, _ => plain_nil
theorem plain_entries : ∀ (ks : List Str) (es : List Expr), (∀ k ∈ ks, IsShort k) → SpelledAll kind es → Plain (putEntries kind ks es)
  | k :: ks, e :: es, hk, h => plain_sign (by decide) (plain_short (hk k (by simp)) (plain_sign (by decide) (plain_append (plain_put e h.1)
      (plain_entries ks es (fun k' h' => hk k' (List.mem_cons_of_mem _ h')) h.2))))
  | [], [], _, _ => plain_nil
  | [], _ :: _, _, _ => plain_nil
  | _ :: _, [], _, _ => plain_nil
end

theorem plain_dots : ∀ (ks : List Str) (es : List Expr), (∀ k ∈ ks, IsName k) → SpelledAll kind es → Plain (putDots kind ks es)
  | k :: ks, e :: es, hk, h => plain_sign (by decide) (plain_sign (by decide) (plain_name (hk k (by simp)) (plain_sign (by decide) (plain_append (plain_put hkind e h.1)
      (plain_dots ks es (fun k' h' => hk k' (List.mem_cons_of_mem _ h')) h.2)))))
  | [], _, _, _ => plain_nil
  | _ :: _, [], _, _ => plain_nil

theorem plain_ids : ∀ (ks : List Str), (∀ k ∈ ks, IsName k) → Plain (putIds ks)
  | [], _ => plain_nil
  | k :: ks, h => plain_sign (by decide) (plain_name (h k (by simp)) (plain_ids ks (fun k' h' => h k' (List.mem_cons_of_mem _ h'))))

theorem plain_args : ∀ (ks : List Str), (∀ k ∈ ks, IsName k) → Plain (putArgs ks)
  | [], _ => plain_nil
  | k :: ks, h => plain_sign (by decide) (plain_name (h k (by simp)) (plain_sign (by decide) (plain_sign (by decide) (plain_sign (by decide)
      (plain_args ks (fun k' h' => h k' (List.mem_cons_of_mem _ h')))))))

theorem plain_small {s : Stmt} (h : SpelledSmall kind s) : Plain (putSmall kind s) := by
  cases s with
  | exprs es => exact plain_list hkind es h
  | assign l op r =>
    obtain ⟨hl, ⟨w, hw, rfl⟩, hr⟩ := h
    refine plain_append (plain_list hkind l hl) ?_
    simp only [assignOps, List.mem_cons, List.not_mem_nil, or_false] at hw
    rcases hw with rfl | rfl | rfl | rfl | rfl | rfl | rfl <;> exact plain_sign (by decide) (plain_list hkind r hr)
  | fancy cat ks vs =>
    match ks, vs, h with
    | [], _, _ => exact plain_nil
    | _ :: _, [], _ => exact plain_nil
    | k :: ks, e :: es, h =>
      have h1 : Plain (tk K.dot "." :: (K.id, .str k) :: tk K.assign "=" :: (put kind e ++ putDots kind ks es)) :=
        plain_sign (by decide) (plain_name (h.2.1 k (by simp)) (plain_sign (by decide) (plain_append (plain_put hkind e h.2.2.1)
          (plain_dots hkind ks es (fun k' h' => h.2.1 k' (List.mem_cons_of_mem _ h')) h.2.2.2))))
      have := plain_name h.1 (plain_parens h1 plain_nil)
      simpa [putSmall] using this
  | print e => exact plain_sign (by decide) (plain_put hkind e h)
  | brk => exact plain_sign (by decide) plain_nil
  | next => exact plain_sign (by decide) plain_nil
  | _ => exact plain_nil

theorem plain_smalls : ∀ (l : List Stmt), (∀ t ∈ l, SpelledSmall kind t) → Plain (putSmalls kind l)
  | [], _ => plain_nil
  | s :: l, h => plain_sign (by decide) (plain_append (plain_small hkind (h s (by simp))) (plain_smalls l (fun t ht => h t (List.mem_cons_of_mem _ ht))))

end

/-! ## Lines -/

/-- The first token is not an end of line. -/
def Starts (w : List (Tok Val)) : Prop := ∃ t r, w = t :: r ∧ t.1 ≠ K.newline

theorem starts_append {a b : List (Tok Val)} (h : Starts a) : Starts (a ++ b) := by
  obtain ⟨t, r, rfl, ht⟩ := h
  exact ⟨t, r ++ b, rfl, ht⟩

theorem starts_tk {k : Nat} {v : Val} {r : List (Tok Val)} (h : k ≠ K.newline) : Starts ((k, v) :: r) := ⟨_, r, rfl, h⟩

theorem starts_put {kind : Str → Nat} (hkind : ∀ s, kind s ∈ literalKinds) : ∀ e : Expr, Fits e → Starts (put kind e)
  | .name _, _ => starts_tk (by decide)
  | .tag _, _ => starts_tk (by decide)
  | .lit s, _ => starts_tk (fun e => by
      have := hkind s
      rw [e] at this
      revert this
      decide)
  | .group _, _ => starts_tk (by decide)
  | .list _, _ => starts_tk (by decide)
  | .table _ _, _ => starts_tk (by decide)
  | .attr p _, h => starts_append (starts_put hkind p h.2)
  | .sub p _, h => starts_append (starts_put hkind p h.2.1)
  | .items p _, h => starts_append (starts_put hkind p h.2.1)
  | .slice p _, h => starts_append (starts_put hkind p h.2.1)
  | .slices _, h => h.elim
  | .int0, h => h.elim
  | .call _ _, _ => starts_tk (by decide)
  | .op _ a _, h => starts_append (starts_put hkind a h.2.1)
  | .sign true _, _ => starts_tk (by decide)
  | .sign false _, _ => starts_tk (by decide)
  | .not _, _ => starts_tk (by decide)

theorem starts_list {kind : Str → Nat} (hkind : ∀ s, kind s ∈ literalKinds) : ∀ {es : List Expr}, es ≠ [] → FitsAll es → Starts (putList kind es)
  | [], h, _ => absurd rfl h
  | _ :: _, _, h => starts_append (starts_put hkind _ h.1)

theorem starts_small {kind : Str → Nat} (hkind : ∀ s, kind s ∈ literalKinds) {s : Stmt} (h : FitsSmall s) : Starts (putSmall kind s) := by
  cases s with
  | exprs es => exact starts_list hkind h.1 h.2
  | assign l op r => exact starts_append (starts_list hkind h.1 h.2.1)
  | fancy cat ks vs =>
    match ks, vs, h with
    | [], _, h => exact absurd rfl h.1
    | _ :: _, [], h => exact absurd h.2.1 (by simp)
    | k :: ks, e :: es, h => exact starts_tk (by decide)
  | print e => exact starts_tk (by decide)
  | brk => exact starts_tk (by decide)
  | next => exact starts_tk (by decide)
  | _ => exact h.elim

theorem starts_line {kind : Str → Nat} (hkind : ∀ s, kind s ∈ literalKinds) (l : Line) (h : l.Fits) : Starts (l.put kind) := by
  cases l with
  | small s more => rw [Line.put]; exact starts_append (starts_small hkind (by simp only [Line.Fits] at h; exact h.1))
  | _ => rw [Line.put]; exact starts_tk (by decide)

theorem starts_lines {kind : Str → Nat} (hkind : ∀ s, kind s ∈ literalKinds) (r : Lines) (h : r.Fits) : r.put kind = [] ∨ Starts (r.put kind) := by
  cases r with
  | nil => exact .inl (by rw [Lines.put])
  | cons l r =>
    simp only [Lines.Fits] at h
    exact .inr (by rw [Lines.put]; exact starts_append (starts_line hkind l h.1))

/-- Tokens that can be put, outside parentheses, before others that do not begin with an end of line. -/
def Full (w : List (Tok Val)) : Prop := ∀ r, Writable 0 r → (∀ t ∈ r.head?, t.1 ≠ K.newline) → Writable 0 (w ++ r)

theorem full_plain {a w : List (Tok Val)} (ha : Plain a) (hw : Full w) : Full (a ++ w) := fun r h hn => by
  rw [List.append_assoc]
  exact ha 0 _ (hw r h hn)

theorem starts_head {w r : List (Tok Val)} (h : Starts w) : ∀ t ∈ (w ++ r).head?, t.1 ≠ K.newline := by
  obtain ⟨t, u, rfl, ht⟩ := h
  intro x hx
  simp only [List.cons_append, List.head?_cons, Option.mem_def, Option.some.injEq] at hx
  subst hx
  exact ht

theorem full_append {a b : List (Tok Val)} (ha : Full a) (hb : Full b) (hs : b = [] ∨ Starts b) : Full (a ++ b) := fun r h hn => by
  rw [List.append_assoc]
  refine ha _ (hb r h hn) ?_
  rcases hs with rfl | hs
  · exact hn
  · exact starts_head hs

theorem full_newline : Full [tk K.newline "\n"] := fun r h hn => by
  refine ⟨⟨_, rfl, .inr (.inr (.inr (.inl ⟨rfl, rfl⟩)))⟩, ⟨fun _ => hn, fun e => absurd e (by decide)⟩, ?_⟩
  show if K.newline = K.openParen then _ else _
  rw [if_neg (by decide), if_neg (by decide)]
  exact ⟨fun _ => rfl, h⟩

theorem full_of_plain {a : List (Tok Val)} (ha : Plain a) : Full a := fun r h _ => ha 0 r h

/-- A body begins with a brace. -/
theorem body_brace (kind : Str → Nat) (b : Body) : ∃ r, b.put kind = tk K.openBrace "{" :: r := by
  cases b with
  | mk l r => exact ⟨_, by rw [Body.put]⟩

section
variable {kind : Str → Nat} (hkind : ∀ s, kind s ∈ literalKinds)
include hkind

theorem elses_starts (e : Elses) : e.put kind = [] ∨ Starts (e.put kind) := by
  cases e with
  | nil => exact .inl (by rw [Elses.put])
  | else_ b => exact .inr (by rw [Elses.put]; exact starts_tk (by decide))
  | elseif c b r => exact .inr (by rw [Elses.put]; exact starts_tk (by decide))

mutual
theorem full_line : ∀ l : Line, l.Spelled kind → l.Fits → Full (l.put kind)
  | .small s more, h, _ => by
    simp only [Line.Spelled] at h
    rw [Line.put]
    exact full_plain (plain_small hkind h.1) (full_plain (plain_smalls hkind more h.2) full_newline)
  | .ite c b els, h, hf => by
    simp only [Line.Spelled] at h
    simp only [Line.Fits] at hf
    have h1 := full_append (full_body b h.2.1 hf.2.1) (full_elses els h.2.2 hf.2.2) (elses_starts hkind els)
    have h2 : Plain (tk K.if_ "if" :: tk K.openParen "(" :: (Drel.put kind c ++ [tk K.closeParen ")"])) :=
      plain_sign (by decide) (plain_parens (plain_put hkind c h.1) plain_nil)
    rw [Line.put]
    simpa using full_plain h2 h1
  | .do_ i a z st b, h, hf => by
    simp only [Line.Spelled] at h
    simp only [Line.Fits] at hf
    have h2 : Plain (tk K.do_ "do" :: (K.id, .str i) :: tk K.assign "=" :: (Drel.put kind a ++ tk K.comma "," :: (Drel.put kind z ++ tk K.comma "," :: Drel.put kind st))) :=
      plain_sign (by decide) (plain_name h.1 (plain_sign (by decide) (plain_append (plain_put hkind a h.2.1) (plain_sign (by decide)
        (plain_append (plain_put hkind z h.2.2.1) (plain_sign (by decide) (plain_put hkind st h.2.2.2.1)))))))
    rw [Line.put]
    simpa using full_plain h2 (full_body b h.2.2.2.2 hf.2.2.2)
  | .for_ i ids x over b, h, hf => by
    simp only [Line.Spelled] at h
    simp only [Line.Fits] at hf
    have h2 : Plain (tk K.for_ "for" :: (K.id, .str i) :: (putIds ids ++ tk K.in_ "in" :: putList kind (x :: over))) :=
      plain_sign (by decide) (plain_name h.1 (plain_append (plain_ids hkind ids h.2.1) (plain_sign (by decide) (plain_list hkind _ h.2.2.1))))
    rw [Line.put]
    simpa using full_plain h2 (full_body b h.2.2.2 hf.2)
  | .rep b, h, hf => by
    simp only [Line.Spelled] at h
    simp only [Line.Fits] at hf
    have h2 : Plain [tk K.repeat_ "repeat"] := plain_sign (by decide) plain_nil
    rw [Line.put]
    simpa using full_plain h2 (full_body b h hf)
  | .with_ a c b, h, hf => by
    simp only [Line.Spelled] at h
    simp only [Line.Fits] at hf
    have h2 : Plain [tk K.with_ "with", (K.id, .str a), tk K.as_ "as", (K.id, .str c)] :=
      plain_sign (by decide) (plain_name h.1 (plain_sign (by decide) (plain_name h.2.1 plain_nil)))
    rw [Line.put]
    simpa using full_plain h2 (full_body b h.2.2 hf)
  | .loop a c b, h, hf => by
    simp only [Line.Spelled] at h
    simp only [Line.Fits] at hf
    have h2 : Plain [tk K.loop "loop", (K.id, .str a), tk K.as_ "as", (K.id, .str c)] :=
      plain_sign (by decide) (plain_name h.1 (plain_sign (by decide) (plain_name h.2.1 plain_nil)))
    rw [Line.put]
    simpa using full_plain h2 (full_body b h.2.2 hf)
  | .loopIndex a c i b, h, hf => by
    simp only [Line.Spelled] at h
    simp only [Line.Fits] at hf
    have h2 : Plain [tk K.loop "loop", (K.id, .str a), tk K.as_ "as", (K.id, .str c), tk K.colon ":", (K.id, .str i)] :=
      plain_sign (by decide) (plain_name h.1 (plain_sign (by decide) (plain_name h.2.1 (plain_sign (by decide) (plain_name h.2.2.1 plain_nil)))))
    rw [Line.put]
    simpa using full_plain h2 (full_body b h.2.2.2 hf)
  | .loopTest a c i o l b, h, hf => by
    simp only [Line.Spelled] at h
    simp only [Line.Fits] at hf
    have h2 : Plain (tk K.loop "loop" :: (K.id, .str a) :: tk K.as_ "as" :: (K.id, .str c) :: tk K.colon ":" :: (K.id, .str i) :: (opToks o ++ [(K.id, .str l)])) :=
      plain_sign (by decide) (plain_name h.1 (plain_sign (by decide) (plain_name h.2.1 (plain_sign (by decide) (plain_name h.2.2.1
        (plain_append (plain_op o) (plain_name h.2.2.2.1 plain_nil)))))))
    rw [Line.put]
    simpa using full_plain h2 (full_body b h.2.2.2.2 hf.2)
  | .func f x xs b, h, hf => by
    simp only [Line.Spelled] at h
    simp only [Line.Fits] at hf
    have h1 : Plain ((K.id, .str x) :: tk K.colon ":" :: tk K.openSq "[" :: tk K.closeSq "]" :: putArgs xs) :=
      plain_name h.2.1 (plain_sign (by decide) (plain_sign (by decide) (plain_sign (by decide) (plain_args hkind xs h.2.2.1))))
    have h2 := plain_sign (k := K.function) (s := "function") (by decide) (plain_name h.1 (plain_parens h1 plain_nil))
    rw [Line.put]
    simpa using full_plain h2 (full_body b h.2.2.2 hf)
theorem full_body : ∀ b : Body, b.Spelled kind → b.Fits → Full (b.put kind)
  | .mk l r, h, hf => by
    simp only [Body.Spelled] at h
    simp only [Body.Fits] at hf
    have h1 := full_append (full_lines r h.2 hf.2) (full_of_plain (plain_sign (k := K.closeBrace) (s := "}") (by decide) plain_nil)) (.inr (starts_tk (by decide)))
    have h2 := full_append (full_line l h.1 hf.1) h1 (.inr (by
      rcases starts_lines hkind r hf.2 with e | e
      · rw [e]; exact starts_tk (by decide)
      · exact starts_append e))
    have h3 : Plain [tk K.openBrace "{"] := plain_sign (by decide) plain_nil
    rw [Body.put]
    exact full_plain h3 h2
theorem full_lines : ∀ r : Lines, r.Spelled kind → r.Fits → Full (r.put kind)
  | .nil, _, _ => by rw [Lines.put]; exact full_of_plain plain_nil
  | .cons l r, h, hf => by
    simp only [Lines.Spelled] at h
    simp only [Lines.Fits] at hf
    rw [Lines.put]
    exact full_append (full_line l h.1 hf.1) (full_lines r h.2 hf.2) (starts_lines hkind r hf.2)
theorem full_elses : ∀ e : Elses, e.Spelled kind → e.Fits → Full (e.put kind)
  | .nil, _, _ => by rw [Elses.put]; exact full_of_plain plain_nil
  | .else_ b, h, hf => by
    simp only [Elses.Spelled] at h
    simp only [Elses.Fits] at hf
    rw [Elses.put]
    intro r hr hn
    have hb := full_body b h hf r hr hn
    obtain ⟨u, hu⟩ := body_brace kind b
    refine ⟨⟨_, rfl, .inr (.inr (.inr (.inr (.inl ⟨rfl, rfl⟩))))⟩, ⟨fun e => absurd e (by decide), fun _ => ?_⟩, ?_⟩
    · show NoIf (b.put kind ++ r)
      rw [hu]
      show if K.openBrace = K.newline then _ else _
      rw [if_neg (by decide)]
      rfl
    · show if K.else_ = K.openParen then _ else _
      rw [if_neg (by decide), if_neg (by decide)]
      exact ⟨fun _ => rfl, hb⟩
  | .elseif c b r, h, hf => by
    simp only [Elses.Spelled] at h
    simp only [Elses.Fits] at hf
    have h1 := full_append (full_body b h.2.1 hf.2.1) (full_elses r h.2.2 hf.2.2) (elses_starts hkind r)
    have h2 : Plain (tk K.elseif "else if" :: tk K.openParen "(" :: (Drel.put kind c ++ [tk K.closeParen ")"])) :=
      plain_sign (by decide) (plain_parens (plain_put hkind c h.1) plain_nil)
    rw [Elses.put]
    simpa using full_plain h2 h1
end

end

end Drel
end Verif
