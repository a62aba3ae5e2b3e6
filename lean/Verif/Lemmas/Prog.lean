import Verif.Model.World
/-!
# Reasoning about programs

`Post p w Q`: running `p` in the world `w` ends with a result and a world satisfying `Q` (weakest precondition).
`Pres T p`: `p` relates every world to the world it leaves by `T`, whatever its result is.
-/
namespace Verif
namespace Prog
variable {F : Type} {α β γ : Type}

/-- `Q` holds of the outcome of `p` in `w`. -/
def Post (p : Prog F α) (w : World F) (Q : Res F α → World F → Prop) : Prop := Q (p w).1 (p w).2

/-- What has to hold of the outcome of the first part of a sequence. -/
def After (f : α → Prog F β) (Q : Res F β → World F → Prop) (r : Res F α) (w : World F) : Prop :=
  match r with
  | .ok a => Post (f a) w Q
  | .err e => Q (.err e) w
  | .panic m => Q (.panic m) w
  | .blocked => Q .blocked w

@[simp] theorem after_ok (f : α → Prog F β) (Q w) (a : α) : After f Q (.ok a) w = Post (f a) w Q := rfl
@[simp] theorem after_err (f : α → Prog F β) (Q w) (e) : After f Q (.err e) w = Q (.err e) w := rfl
@[simp] theorem after_panic (f : α → Prog F β) (Q w) (m) : After f Q (.panic m) w = Q (.panic m) w := rfl
@[simp] theorem after_blocked (f : α → Prog F β) (Q w) : After f Q .blocked w = Q .blocked w := rfl

theorem Post.mono {p : Prog F α} {w : World F} {Q R : Res F α → World F → Prop} (h : Post p w Q)
    (hQ : ∀ r w', Q r w' → R r w') : Post p w R := hQ _ _ h

theorem Post.and {p : Prog F α} {w : World F} {Q R : Res F α → World F → Prop} (h : Post p w Q) (h' : Post p w R) :
    Post p w (fun r w' => Q r w' ∧ R r w') := ⟨h, h'⟩

theorem post_bind' (p : Prog F α) (f : α → Prog F β) (w : World F) (Q : Res F β → World F → Prop) :
    Post (Prog.bind p f) w Q ↔ Post p w (After f Q) := by
  unfold Post Prog.bind After
  split <;> rename_i h <;> simp only [h, Post]

@[simp] theorem post_bind (p : Prog F α) (f : α → Prog F β) (w : World F) (Q : Res F β → World F → Prop) :
    Post (p >>= f) w Q ↔ Post p w (After f Q) := post_bind' p f w Q

theorem Post.bind {p : Prog F α} {f : α → Prog F β} {w : World F} {S : Res F α → World F → Prop}
    {Q : Res F β → World F → Prop} (h : Post p w S) (hQ : ∀ r w', S r w' → After f Q r w') : Post (p >>= f) w Q :=
  (post_bind p f w Q).2 (h.mono hQ)

@[simp] theorem post_pure (a : α) (w : World F) (Q : Res F α → World F → Prop) :
    Post (pure a : Prog F α) w Q ↔ Q (.ok a) w := Iff.rfl
@[simp] theorem post_pure' (a : α) (w : World F) (Q : Res F α → World F → Prop) :
    Post (Prog.pure a : Prog F α) w Q ↔ Q (.ok a) w := Iff.rfl
@[simp] theorem post_err (e) (w : World F) (Q : Res F α → World F → Prop) :
    Post (err e : Prog F α) w Q ↔ Q (.err e) w := Iff.rfl
@[simp] theorem post_panic (m) (w : World F) (Q : Res F α → World F → Prop) :
    Post (Prog.panic m : Prog F α) w Q ↔ Q (.panic m) w := Iff.rfl
@[simp] theorem post_blocked (w : World F) (Q : Res F α → World F → Prop) :
    Post (blocked : Prog F α) w Q ↔ Q .blocked w := Iff.rfl
@[simp] theorem post_gets (f : World F → α) (w : World F) (Q : Res F α → World F → Prop) :
    Post (gets f) w Q ↔ Q (.ok (f w)) w := Iff.rfl
@[simp] theorem post_modify (f : World F → World F) (w : World F) (Q : Res F Unit → World F → Prop) :
    Post (modify f) w Q ↔ Q (.ok ()) (f w) := Iff.rfl
@[simp] theorem post_emit (e : Ev F) (w : World F) (Q : Res F Unit → World F → Prop) :
    Post (emit e) w Q ↔ Q (.ok ()) { w with trace := w.trace ++ [e] } := Iff.rfl
@[simp] theorem post_liftP_ok (a : α) (w : World F) (Q : Res F α → World F → Prop) :
    Post (liftP (.ok a) : Prog F α) w Q ↔ Q (.ok a) w := Iff.rfl
@[simp] theorem post_liftP_error (m) (w : World F) (Q : Res F α → World F → Prop) :
    Post (liftP (.error m) : Prog F α) w Q ↔ Q (.panic m) w := Iff.rfl

theorem post_liftP (x : P α) (w : World F) (Q : Res F α → World F → Prop) :
    Post (liftP x : Prog F α) w Q ↔ (∀ a, x = .ok a → Q (.ok a) w) ∧ (∀ m, x = .error m → Q (.panic m) w) := by
  cases x <;> simp

/-- What has to hold of a program's outcome when the result is looked at. -/
def Tried (Q : Res F (Except (FrankaException F) α) → World F → Prop) (r : Res F α) (w : World F) : Prop :=
  match r with
  | .ok a => Q (.ok (.ok a)) w
  | .err e => Q (.ok (.error e)) w
  | .panic m => Q (.panic m) w
  | .blocked => Q .blocked w

@[simp] theorem tried_ok (Q w) (a : α) : Tried (F := F) Q (.ok a) w = Q (.ok (.ok a)) w := rfl
@[simp] theorem tried_err (Q : Res F (Except (FrankaException F) α) → World F → Prop) (w) (e) :
    Tried Q (.err e) w = Q (.ok (.error e)) w := rfl
@[simp] theorem tried_panic (Q : Res F (Except (FrankaException F) α) → World F → Prop) (w) (m) :
    Tried Q (.panic m) w = Q (.panic m) w := rfl
@[simp] theorem tried_blocked (Q : Res F (Except (FrankaException F) α) → World F → Prop) (w) :
    Tried Q .blocked w = Q .blocked w := rfl

@[simp] theorem post_attempt (p : Prog F α) (w : World F) (Q : Res F (Except (FrankaException F) α) → World F → Prop) :
    Post (attempt p) w Q ↔ Post p w (Tried Q) := by
  unfold Post attempt Tried
  split <;> rename_i h <;> simp only [h]

theorem post_sys (w : World F) (Q : Res F Tick → World F → Prop) :
    Post sys w Q ↔ (w.script = [] → Q .blocked w) ∧
      (∀ t ts, w.script = t :: ts → Q (.ok t) { w with script := ts, ker := w.ker.arrive t }) := by
  unfold Post sys
  cases h : w.script <;> simp

@[simp] theorem post_ite (c : Prop) [Decidable c] (p q : Prog F α) (w : World F) (Q : Res F α → World F → Prop) :
    Post (if c then p else q) w Q ↔ (c → Post p w Q) ∧ (¬c → Post q w Q) := by
  by_cases h : c <;> simp [h]

/-! ## Loops -/

/-- What has to hold after one round of a loop with invariant `I`. -/
def Round (I : β → World F → Prop) (Q : Res F γ → World F → Prop) (r : Res F (β ⊕ γ)) (w : World F) : Prop :=
  match r with
  | .ok (.inl b) => I b w
  | .ok (.inr c) => Q (.ok c) w
  | .err e => Q (.err e) w
  | .panic m => Q (.panic m) w
  | .blocked => Q .blocked w

@[simp] theorem round_inl (I : β → World F → Prop) (Q : Res F γ → World F → Prop) (w) (b) :
    Round I Q (.ok (.inl b)) w = I b w := rfl
@[simp] theorem round_inr (I : β → World F → Prop) (Q : Res F γ → World F → Prop) (w) (c) :
    Round I Q (.ok (.inr c)) w = Q (.ok c) w := rfl
@[simp] theorem round_err (I : β → World F → Prop) (Q : Res F γ → World F → Prop) (w) (e) :
    Round I Q (.err e) w = Q (.err e) w := rfl
@[simp] theorem round_panic (I : β → World F → Prop) (Q : Res F γ → World F → Prop) (w) (m) :
    Round I Q (.panic m) w = Q (.panic m) w := rfl
@[simp] theorem round_blocked (I : β → World F → Prop) (Q : Res F γ → World F → Prop) (w) :
    Round I Q .blocked w = Q .blocked w := rfl

theorem loopFuel_post {body : β → Prog F (β ⊕ γ)} (I : β → World F → Prop) {Q : Res F γ → World F → Prop}
    (hb : ∀ b w, I b w → Post (body b) w (Round I Q)) (hx : ∀ b w, I b w → Q .blocked w) :
    ∀ n b w, I b w → Post (loopFuel body n b) w Q := by
  intro n
  induction n with
  | zero => intro b w h; exact hx b w h
  | succ n ih =>
    intro b w h
    refine (post_bind' _ _ _ _).2 ((hb b w h).mono ?_)
    intro r w' hr
    cases r with
    | ok x =>
      cases x with
      | inl b' => exact ih b' w' hr
      | inr c => exact hr
    | err e => exact hr
    | panic m => exact hr
    | blocked => exact hr

/-- Invariant rule for loops; `hx` is about the waiting for ever of a loop. -/
theorem loop_post {body : β → Prog F (β ⊕ γ)} {b : β} {w : World F} (I : β → World F → Prop)
    {Q : Res F γ → World F → Prop} (h0 : I b w) (hb : ∀ b w, I b w → Post (body b) w (Round I Q))
    (hx : ∀ b w, I b w → Q .blocked w) : Post (loop body b) w Q :=
  loopFuel_post I hb hx _ b w h0

/-- Every round of the loop that continues consumes a tick. -/
def Consumes (body : β → Prog F (β ⊕ γ)) : Prop :=
  ∀ b w b' w', body b w = (.ok (.inl b'), w') → w'.script.length < w.script.length

theorem loopFuel_enough {body : β → Prog F (β ⊕ γ)} (hc : Consumes body) :
    ∀ n m b (w : World F), w.script.length < n → w.script.length < m → loopFuel body n b w = loopFuel body m b w := by
  intro n
  induction n with
  | zero => intro m b w h; omega
  | succ n ih =>
    intro m b w h h'
    cases m with
    | zero => omega
    | succ m =>
      simp only [loopFuel, Prog.bind]
      cases hbw : body b w with
      | mk r w' =>
        cases r with
        | ok x =>
          cases x with
          | inl b' =>
            have := hc b w b' w' hbw
            exact ih m b' w' (by omega) (by omega)
          | inr c => rfl
        | err e => rfl
        | panic m => rfl
        | blocked => rfl

/-- A loop whose continuing rounds consume ticks unfolds like an unbounded loop. -/
theorem loop_unfold {body : β → Prog F (β ⊕ γ)} (hc : Consumes body) (b : β) :
    loop body b = body b >>= fun
      | .inl b' => loop body b'
      | .inr c => pure c := by
  funext w
  show loopFuel body (w.script.length + 1) b w = Prog.bind (body b) _ w
  simp only [loopFuel, Prog.bind]
  cases hbw : body b w with
  | mk r w' =>
    cases r with
    | ok x =>
      cases x with
      | inl b' =>
        have := hc b w b' w' hbw
        exact loopFuel_enough hc _ _ b' w' (by omega) (by omega)
      | inr c => rfl
    | err e => rfl
    | panic m => rfl
    | blocked => rfl

/-- Invariant rule for loops that make progress: waiting for ever only comes from the body. -/
theorem loop_post' {body : β → Prog F (β ⊕ γ)} {b : β} {w : World F} (I : β → World F → Prop)
    {Q : Res F γ → World F → Prop} (hc : Consumes body) (h0 : I b w)
    (hb : ∀ b w, I b w → Post (body b) w (Round I Q)) : Post (loop body b) w Q := by
  have key : ∀ n b (w : World F), w.script.length < n → I b w → Post (loopFuel body n b) w Q := by
    intro n
    induction n with
    | zero => intro b w h; omega
    | succ n ih =>
      intro b w hl h
      have := hb b w h
      unfold Post at this ⊢
      simp only [loopFuel, Prog.bind]
      cases hbw : body b w with
      | mk r w' =>
        rw [hbw] at this
        cases r with
        | ok x =>
          cases x with
          | inl b' =>
            have hlt := hc b w b' w' hbw
            exact ih b' w' (by omega) this
          | inr c => exact this
        | err e => exact this
        | panic m => exact this
        | blocked => exact this
  exact key _ b w (Nat.lt_succ_self _) h0

/-! ## Preorders -/

/-- `p` relates every world to the world it leaves by `T`. -/
def Pres (T : World F → World F → Prop) (p : Prog F α) : Prop := ∀ w, T w (p w).2

/-- A reflexive and transitive relation between worlds. -/
class Pre (T : World F → World F → Prop) : Prop where
  refl : ∀ w, T w w
  trans : ∀ {a b c}, T a b → T b c → T a c

section
variable {T : World F → World F → Prop} [Pre T]

omit [Pre T] in
theorem Pres.post {p : Prog F α} (h : Pres T p) (w : World F) : Post p w (fun _ w' => T w w') := h w

theorem Pres.pure (a : α) : Pres T (pure a : Prog F α) := fun w => Pre.refl w
theorem Pres.err (e) : Pres T (err e : Prog F α) := fun w => Pre.refl w
theorem Pres.panic (m) : Pres T (Prog.panic m : Prog F α) := fun w => Pre.refl w
theorem Pres.blocked : Pres T (blocked : Prog F α) := fun w => Pre.refl w
theorem Pres.gets (f : World F → α) : Pres T (gets f) := fun w => Pre.refl w
theorem Pres.liftP (x : P α) : Pres T (liftP x : Prog F α) := by
  cases x <;> exact fun w => Pre.refl w
theorem Pres.bind' {p : Prog F α} {f : α → Prog F β} (hp : Pres T p) (hf : ∀ a, Pres T (f a)) :
    Pres T (Prog.bind p f) := by
  intro w
  have := hp w
  unfold Prog.bind
  split <;> rename_i h <;> rw [h] at this
  · exact Pre.trans this (hf _ _)
  all_goals exact this
theorem Pres.bind {p : Prog F α} {f : α → Prog F β} (hp : Pres T p) (hf : ∀ a, Pres T (f a)) :
    Pres T (p >>= f) := Pres.bind' hp hf
omit [Pre T] in
theorem Pres.attempt {p : Prog F α} (hp : Pres T p) : Pres T (attempt p) := by
  intro w
  have := hp w
  unfold Prog.attempt
  split <;> rename_i h <;> rw [h] at this <;> exact this
omit [Pre T] in
theorem Pres.ite {c : Prop} [Decidable c] {p q : Prog F α} (hp : Pres T p) (hq : Pres T q) :
    Pres T (if c then p else q) := by
  split <;> assumption
theorem Pres.loop {body : β → Prog F (β ⊕ γ)} (hb : ∀ b, Pres T (body b)) (b : β) : Pres T (loop body b) := by
  intro w
  have : ∀ n b, Pres T (loopFuel body n b) := by
    intro n
    induction n with
    | zero => intro b; exact Pres.blocked
    | succ n ih =>
      intro b
      refine Pres.bind' (hb b) ?_
      intro x
      cases x with
      | inl b' => exact ih b'
      | inr c => exact Pres.pure c
  exact this _ b w
end

/-- Decomposes a goal `Pres T p` along the structure of `p`; the given facts are about the parts. -/
syntax "pres" ("[" term,* "]")? : tactic
macro_rules
  | `(tactic| pres) => `(tactic| pres [])
  | `(tactic| pres [$ts,*]) => `(tactic|
      repeat' (first
        | with_reducible assumption
        $[| with_reducible exact $ts]*
        | with_reducible exact Pres.pure _ | with_reducible exact Pres.err _ | with_reducible exact Pres.panic _
        | with_reducible exact Pres.blocked | with_reducible exact Pres.gets _ | with_reducible exact Pres.liftP _
        | with_reducible refine Pres.bind ?_ ?_ | with_reducible refine Pres.attempt ?_
        | with_reducible refine Pres.ite ?_ ?_ | with_reducible refine Pres.loop ?_ _
        | with_reducible intro _ | split
        $[| exact $ts]*))

/-- The script only gets shorter. -/
def Shorter (w w' : World F) : Prop := w'.script.length ≤ w.script.length

instance : Pre (Shorter (F := F)) := ⟨fun _ => Nat.le_refl _, fun h h' => Nat.le_trans h' h⟩

theorem sys_shorter : Pres Shorter (sys : Prog F Tick) := by
  intro w
  unfold sys Shorter
  split <;> rename_i h <;> simp [h]

/-- `p` consumes a tick whenever it returns normally or with an error. -/
def Eats (p : Prog F α) : Prop := ∀ w, Post p w fun r w' =>
  match r with
  | .ok _ | .err _ => w'.script.length < w.script.length
  | _ => True

theorem Eats.bind {p : Prog F α} {f : α → Prog F β} (hp : Eats p) (hf : ∀ a, Pres Shorter (f a)) : Eats (p >>= f) := by
  intro w
  refine (hp w).bind ?_
  intro r w' h
  cases r with
  | ok a =>
    rw [after_ok]
    refine ((hf a).post w').mono ?_
    intro r w'' h'
    simp only [Shorter] at h'
    cases r <;> simp only at h ⊢ <;> omega
  | err e => exact h
  | panic m => trivial
  | blocked => trivial

theorem Eats.attempt {p : Prog F α} (hp : Eats p) : Eats (attempt p) := by
  intro w
  refine (post_attempt _ _ _).2 ((hp w).mono ?_)
  intro r w' h
  cases r <;> exact h

theorem Eats.bind_right {p : Prog F α} {f : α → Prog F β} (hp : Pres Shorter p) (hf : ∀ a, Eats (f a))
    (he : ∀ w e w', p w ≠ (.err e, w')) : Eats (p >>= f) := by
  intro w
  show Post (p >>= f) w _
  have h1 := hp w
  rw [post_bind]
  show After _ _ (p w).1 (p w).2
  cases h : p w with
  | mk r w' =>
    rw [h] at h1
    cases r with
    | ok a =>
      simp only [after_ok]
      refine (hf a w').mono ?_
      intro r w'' h'
      simp only [Shorter] at h1
      cases r <;> simp only at h' ⊢ <;> omega
    | err e => exact absurd h (he w e w')
    | panic m => trivial
    | blocked => trivial

theorem eats_sys : Eats (sys : Prog F Tick) := by
  intro w
  rw [post_sys]
  refine ⟨fun _ => trivial, ?_⟩
  intro t ts h
  simp [h]

end Prog
end Verif
