import Verif.Model.CLang

/-! # One outside world simulates another

If the calls of functions agree between two outside worlds, then so does everything the
interpreter does. -/

namespace Asdf.C

variable {ι κ α β : Type} {Q : ι → κ → Prop}

/-- Same static objects and local variables, related outside worlds. -/
def SRel (Q : ι → κ → Prop) (s : St ι) (t : St κ) : Prop := s.mem = t.mem ∧ s.env = t.env ∧ Q s.io t.io

/-- If the first run succeeds, so does the second, with the same value; if the first leaves an
array, so does the second. -/
def ORel (Q : ι → κ → Prop) (x : Out ι α) (y : Out κ α) : Prop :=
  (∀ a s, x = .ok a s → ∃ t, y = .ok a t ∧ SRel Q s t) ∧ (x = .err .oob → y = .err .oob)

/-- Calls agree. -/
def CRel (Q : ι → κ → Prop) (c : Call ι) (d : Call κ) : Prop :=
  ∀ f args s t, SRel Q s t → ORel Q (c f args s) (d f args t)

theorem ORel.ok {a : α} {s : St ι} {t : St κ} (h : SRel Q s t) : ORel Q (.ok a s) (.ok a t) := by
  refine ⟨fun b s' e => ?_, nofun⟩
  cases e
  exact ⟨t, rfl, h⟩

theorem ORel.err {e : Err} : ORel Q (.err e : Out ι α) (.err e) :=
  ⟨nofun, fun h => by cases h; rfl⟩

theorem ORel.bad {e : Err} {y : Out κ α} (h : e ≠ .oob) : ORel Q (.err e : Out ι α) y :=
  ⟨nofun, fun h' => by cases h'; exact absurd rfl h⟩

theorem ORel.stop {s : St ι} {y : Out κ α} : ORel Q (.stop s : Out ι α) y := ⟨nofun, nofun⟩

theorem ORel.bind {x : Out ι α} {y : Out κ α} {f : α → St ι → Out ι β} {g : α → St κ → Out κ β}
    (h : ORel Q x y) (hf : ∀ a s t, SRel Q s t → ORel Q (f a s) (g a t)) : ORel Q (x.bind f) (y.bind g) := by
  cases x with
  | ok a s =>
    obtain ⟨t, rfl, r⟩ := h.1 a s rfl
    exact hf a s t r
  | stop s => exact ORel.stop
  | err e =>
    refine ⟨nofun, fun h' => ?_⟩
    cases h'
    rw [h.2 rfl]
    rfl

theorem ORel.lift {x : Except Err α} {s : St ι} {t : St κ} (h : SRel Q s t) : ORel Q (lift x s) (lift x t) := by
  cases x with
  | error e => exact ORel.err
  | ok a => exact ORel.ok h

theorem load_rel {s : St ι} {t : St κ} (h : SRel Q s t) (l : Loc) : loadLoc l s = loadLoc l t := by
  obtain ⟨m, e, _⟩ := h
  cases l <;> simp [loadLoc, m, e]

theorem addr_rel {s : St ι} {t : St κ} (h : SRel Q s t) (l : Loc) : addrOf l s = addrOf l t := by
  obtain ⟨m, e, _⟩ := h
  cases l <;> simp [addrOf, m]

theorem store_rel {s : St ι} {t : St κ} (h : SRel Q s t) (l : Loc) (v : Val) :
    ORel Q (storeLoc l v s) (storeLoc l v t) := by
  obtain ⟨m, e, q⟩ := h
  cases l with
  | rom => exact ORel.err
  | var x =>
    simp only [storeLoc, e]
    cases local? x t.env with
    | none => exact ORel.err
    | some old =>
      dsimp only
      refine ORel.bind (ORel.lift ⟨m, e, q⟩) fun w s t r => ORel.ok ?_
      exact ⟨r.1, by rw [r.2.1], r.2.2⟩
  | obj g p =>
    simp only [storeLoc, m]
    cases (t.mem g).get p with
    | error => exact ORel.err
    | ok tr =>
      cases tr with
      | arr => exact ORel.err
      | struct => exact ORel.err
      | leaf old =>
        dsimp only
        refine ORel.bind (ORel.lift ⟨m, e, q⟩) fun w s t r => ?_
        show ORel Q (Out.bind (C.lift ((s.mem g).set p w) s) _) (Out.bind (C.lift ((t.mem g).set p w) t) _)
        rw [r.1]
        refine ORel.bind (ORel.lift r) fun tr s t r => ORel.ok ?_
        exact ⟨by rw [r.1], r.2.1, r.2.2⟩

theorem ORel.ite {c : Prop} [Decidable c] {x x' : Out ι α} {y y' : Out κ α} (h : ORel Q x y) (h' : ORel Q x' y') :
    ORel Q (if c then x else x') (if c then y else y') := by
  split <;> assumption

section
variable {c : Call ι} {d : Call κ} (hc : CRel Q c d)
include hc

mutual

theorem evalE_rel : ∀ (e : Expr) (s : St ι) (t : St κ), SRel Q s t → ORel Q (evalE c e s) (evalE d e t)
  | .num _, _, _, h => ORel.ok h
  | .lit _ _, _, _, h => ORel.ok h
  | .str _, _, _, h => ORel.ok h
  | .null, _, _, h => ORel.ok h
  | .fn _, _, _, h => ORel.ok h
  | .reg _, _, _, h => ORel.ok h
  | .tab _ _, _, _, h => ORel.ok h
  | .load l, s, t, h => ORel.bind (evalL_rel l s t h) fun l s t h => by
      show ORel Q (lift (loadLoc l s) s) (lift (loadLoc l t) t)
      rw [load_rel h]; exact ORel.lift h
  | .addr l, s, t, h => ORel.bind (evalL_rel l s t h) fun l s t h => by
      show ORel Q (lift (addrOf l s) s) (lift (addrOf l t) t)
      rw [addr_rel h]; exact ORel.lift h
  | .row p i, s, t, h => ORel.bind (evalE_rel p s t h) fun _ s t h => ORel.bind (evalE_rel i s t h) fun _ s t h =>
      ORel.bind (ORel.lift h) fun _ s t h => ORel.lift h
  | .un _ a, s, t, h => ORel.bind (evalE_rel a s t h) fun _ s t h => ORel.lift h
  | .bin _ a b, s, t, h => ORel.bind (evalE_rel a s t h) fun _ s t h => ORel.bind (evalE_rel b s t h)
      fun _ s t h => ORel.lift h
  | .and a b, s, t, h => ORel.bind (evalE_rel a s t h) fun _ s t h =>
      ORel.ite (ORel.bind (evalE_rel b s t h) fun _ s t h => ORel.ok h) (ORel.ok h)
  | .or a b, s, t, h => ORel.bind (evalE_rel a s t h) fun _ s t h =>
      ORel.ite (ORel.ok h) (ORel.bind (evalE_rel b s t h) fun _ s t h => ORel.ok h)
  | .cond e a b, s, t, h => ORel.bind (evalE_rel e s t h) fun _ s t h =>
      ORel.ite (evalE_rel a s t h) (evalE_rel b s t h)
  | .assign l e, s, t, h => ORel.bind (evalL_rel l s t h) fun l s t h => ORel.bind (evalE_rel e s t h)
      fun v s t h => store_rel h l v
  | .update op l e, s, t, h => ORel.bind (evalL_rel l s t h) fun l s t h => ORel.bind (evalE_rel e s t h)
      fun v s t h => by
        show ORel Q (Out.bind (lift (loadLoc l s) s) _) (Out.bind (lift (loadLoc l t) t) _)
        rw [load_rel h]
        exact ORel.bind (ORel.lift h) fun _ s t h => ORel.bind (ORel.lift h) fun w s t h => store_rel h l w
  | .post op l, s, t, h => ORel.bind (evalL_rel l s t h) fun l s t h => by
        show ORel Q (Out.bind (lift (loadLoc l s) s) _) (Out.bind (lift (loadLoc l t) t) _)
        rw [load_rel h]
        exact ORel.bind (ORel.lift h) fun _ s t h => ORel.bind (ORel.lift h) fun w s t h =>
          ORel.bind (store_rel h l w) fun _ s t h => ORel.ok h
  | .cast _ e, s, t, h => ORel.bind (evalE_rel e s t h) fun _ s t h => ORel.lift h
  | .call f args, s, t, h => ORel.bind (evalArgs_rel args s t h) fun vs s t h => hc f vs s t h
  | .callp p args, s, t, h => ORel.bind (evalE_rel p s t h) fun v s t h => ORel.bind (evalArgs_rel args s t h)
      fun vs s t h => by
        cases v with
        | fn f => exact hc f vs s t h
        | _ => exact ORel.err

theorem evalL_rel : ∀ (e : LExpr) (s : St ι) (t : St κ), SRel Q s t → ORel Q (evalL c e s) (evalL d e t)
  | .var _, _, _, h => ORel.ok h
  | .obj _, _, _, h => ORel.ok h
  | .idx a i, s, t, h => ORel.bind (evalL_rel a s t h) fun l s t h => ORel.bind (evalE_rel i s t h)
      fun _ s t h => ORel.bind (ORel.lift h) fun _ s t h => by
        cases l with
        | obj g p => exact ORel.ok h
        | _ => exact ORel.err
  | .pidx p i, s, t, h => ORel.bind (evalE_rel p s t h) fun _ s t h => ORel.bind (evalE_rel i s t h)
      fun _ s t h => ORel.bind (ORel.lift h) fun _ s t h => ORel.lift h
  | .deref p, s, t, h => ORel.bind (evalE_rel p s t h) fun _ s t h => ORel.lift h
  | .fld a f, s, t, h => ORel.bind (evalL_rel a s t h) fun l s t h => by
        cases l with
        | obj g p => exact ORel.ok h
        | _ => exact ORel.err

theorem evalArgs_rel : ∀ (e : Args) (s : St ι) (t : St κ), SRel Q s t → ORel Q (evalArgs c e s) (evalArgs d e t)
  | .nil, _, _, h => ORel.ok h
  | .cons e rest, s, t, h => ORel.bind (evalE_rel e s t h) fun _ s t h => ORel.bind (evalArgs_rel rest s t h)
      fun _ s t h => ORel.ok h

end

theorem coerce_rel (ty : Ty) (v : Val) (s : St ι) (t : St κ) (h : SRel Q s t) :
    ORel Q (coerce c ty v s) (coerce d ty v t) := by
  cases ty with
  | int => exact ORel.lift h
  | ptr => exact ORel.lift h
  | mat cols => exact ORel.bind (evalE_rel hc cols s t h) fun _ s t h => ORel.bind (ORel.lift h) fun _ s t h => ORel.lift h

omit hc in
theorem turns_rel {c1 : St ι → Out ι Val} {c2 : St κ → Out κ Val} {b1 : St ι → Out ι Ctl} {b2 : St κ → Out κ Ctl}
    {s1 : St ι → Out ι Val} {s2 : St κ → Out κ Val} (h1 : ∀ s t, SRel Q s t → ORel Q (c1 s) (c2 t))
    (h2 : ∀ s t, SRel Q s t → ORel Q (b1 s) (b2 t)) (h3 : ∀ s t, SRel Q s t → ORel Q (s1 s) (s2 t)) :
    ∀ (n : Nat) (s : St ι) (t : St κ), SRel Q s t → ORel Q (turns c1 b1 s1 n s) (turns c2 b2 s2 n t)
  | 0, _, _, _ => ORel.err
  | n + 1, s, t, h => ORel.bind (h1 s t h) fun _ s t h => ORel.ite
      (ORel.bind (h2 s t h) fun c s t h => by
        cases c with
        | next => exact ORel.bind (h3 s t h) fun _ s t h => turns_rel h1 h2 h3 n s t h
        | brk => exact ORel.ok h
        | ret v => exact ORel.ok h)
      (ORel.ok h)

omit hc in
theorem leave_rel {s : St ι} {t : St κ} (h : SRel Q s t) (n : Nat) : SRel Q (leave n s) (leave n t) :=
  ⟨h.1, by show List.drop _ s.env = List.drop _ t.env; rw [h.2.1], h.2.2⟩

mutual

theorem exec_rel (w : Nat) : ∀ (a : Stmt) (s : St ι) (t : St κ), SRel Q s t → ORel Q (exec c w a s) (exec d w a t)
  | .skip, _, _, h => ORel.ok h
  | .seq a b, s, t, h => ORel.bind (exec_rel w a s t h) fun c s t h => by
      cases c with
      | next => exact exec_rel w b s t h
      | brk => exact ORel.ok h
      | ret v => exact ORel.ok h
  | .block a, s, t, h => ORel.bind (exec_rel w a s t h) fun _ s' t' h' => by
      rw [h.2.1]
      exact ORel.ok (leave_rel h' _)
  | .expr e, s, t, h => ORel.bind (evalE_rel hc e s t h) fun _ s t h => ORel.ok h
  | .decl ty x e, s, t, h => ORel.bind (evalE_rel hc e s t h) fun _ s t h => ORel.bind (coerce_rel hc ty _ s t h)
      fun _ s t h => ORel.ok ⟨h.1, by rw [h.2.1], h.2.2⟩
  | .declU ty x, s, t, h => ORel.ok ⟨h.1, by rw [h.2.1], h.2.2⟩
  | .ite e a b, s, t, h => ORel.bind (evalE_rel hc e s t h) fun _ s t h =>
      ORel.ite (exec_rel w a s t h) (exec_rel w b s t h)
  | .loop e st b, s, t, h => turns_rel (evalE_rel hc e) (exec_rel w b) (evalE_rel hc st) w s t h
  | .switch e cs, s, t, h => ORel.bind (evalE_rel hc e s t h) fun _ s t h => ORel.bind (ORel.lift h) fun _ s t h =>
      ORel.bind (execCases_rel w _ _ cs s t h) fun c s t h => by
        cases c with
        | next => exact ORel.ok h
        | brk => exact ORel.ok h
        | ret v => exact ORel.ok h
  | .brk, _, _, h => ORel.ok h
  | .ret e, s, t, h => ORel.bind (evalE_rel hc e s t h) fun _ s t h => ORel.ok h
  | .ret0, _, _, h => ORel.ok h

theorem execCases_rel (w : Nat) (target : Option Int) (on : Bool) : ∀ (a : Cases) (s : St ι) (t : St κ),
    SRel Q s t → ORel Q (execCases c w target on a s) (execCases d w target on a t)
  | .nil, _, _, h => ORel.ok h
  | .cons labels dflt b rest, s, t, h => ORel.ite
      (ORel.bind (exec_rel w b s t h) fun c s t h => by
        cases c with
        | next => exact execCases_rel w target true rest s t h
        | brk => exact ORel.ok h
        | ret v => exact ORel.ok h)
      (execCases_rel w target on rest s t h)

end

theorem bindArgs_rel : ∀ (ps : List (L × Ty)) (vs : List Val) (s : St ι) (t : St κ), SRel Q s t →
    ORel Q (bindArgs c ps vs s) (bindArgs d ps vs t)
  | [], [], _, _, h => ORel.ok h
  | (_, ty) :: ps, v :: vs, s, t, h => ORel.bind (coerce_rel hc ty v s t h) fun _ s t h =>
      ORel.bind (bindArgs_rel ps vs s t h) fun _ s t h => ORel.ok h
  | [], _ :: _, _, _, _ => ORel.err
  | _ :: _, [], _, _, _ => ORel.err

theorem apply_rel (w : Nat) (f : Fun) (args : List Val) (s : St ι) (t : St κ) (h : SRel Q s t) :
    ORel Q (apply c w f args s) (apply d w f args t) := by
  refine ORel.bind (bindArgs_rel hc _ _ s t h) fun e _ _ _ => ?_
  refine ORel.bind (exec_rel hc w _ _ _ ⟨h.1, rfl, h.2.2⟩) fun k s' t' h' => ?_
  have h2 : SRel Q { s' with env := s.env } { t' with env := t.env } := ⟨h'.1, h.2.1, h'.2.2⟩
  generalize f.result = r
  cases k with
  | ret v =>
    cases r with
    | none => exact ORel.ok h2
    | some ty => exact coerce_rel hc ty v _ _ h2
  | next =>
    cases r with
    | none => exact ORel.ok h2
    | some ty => exact ORel.err
  | brk =>
    cases r with
    | none => exact ORel.ok h2
    | some ty => exact ORel.err

end

end Asdf.C
