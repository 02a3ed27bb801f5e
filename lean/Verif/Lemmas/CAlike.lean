import Verif.Lemmas.CSim

/-! # Two programs that do the same for a while

If the calls of functions have the same outcome until some condition `G` on the outside world
holds, which then goes on to hold, the same is true of everything the interpreter does. -/

namespace Asdf.C

variable {ι α β : Type} {G : ι → Prop}

/-- The condition holds afterwards (a run that was given up may be different, as may any failing run
once the condition holds). -/
def OG (G : ι → Prop) : Out ι α → Prop
  | .ok _ s => G s.io
  | .stop s => G s.io
  | .err e => e = .fuel ∨ ∃ h, G h

/-- From the state `s`: the same outcome, or the condition holds afterwards; and it stays. -/
def Alike (G : ι → Prop) (s : St ι) (x y : Out ι α) : Prop := (x = y ∨ OG G x) ∧ (G s.io → OG G x)

theorem Alike.bind {s : St ι} {x y : Out ι α} {f g : α → St ι → Out ι β} (h : Alike G s x y)
    (hf : ∀ a t, Alike G t (f a t) (g a t)) : Alike G s (x.bind f) (y.bind g) := by
  have key : OG G x → OG G (x.bind f) := by
    intro hx
    cases x with
    | ok a t => exact (hf a t).2 hx
    | stop t => exact hx
    | err e => exact hx
  refine ⟨?_, fun hs => key (h.2 hs)⟩
  rcases h.1 with rfl | hx
  · cases x with
    | ok a t => exact (hf a t).1
    | stop t => exact .inl rfl
    | err e => exact .inl rfl
  · exact .inr (key hx)

theorem Alike.same {s : St ι} {x : Out ι α} (h : G s.io → OG G x) : Alike G s x x := ⟨.inl rfl, h⟩
theorem Alike.ok {s t : St ι} {a : α} (h : t.io = s.io) : Alike G s (.ok a t) (.ok a t) := .same fun hs => by
  show G t.io
  rw [h]; exact hs
theorem Alike.err {s : St ι} {e : Err} : Alike (α := α) G s (.err e) (.err e) := .same fun h => .inr ⟨_, h⟩
theorem Alike.fuel {s : St ι} {y : Out ι α} : Alike G s (.err .fuel) y := ⟨.inr (.inl rfl), fun _ => .inl rfl⟩
theorem Alike.lift {s : St ι} {x : Except Err α} : Alike G s (lift x s) (lift x s) := by
  cases x with
  | error e => exact .err
  | ok a => exact .ok rfl
theorem Alike.ite {s : St ι} {c : Prop} [Decidable c] {x x' y y' : Out ι α} (h : Alike G s x y) (h' : Alike G s x' y') :
    Alike G s (if c then x else x') (if c then y else y') := by
  split <;> assumption

theorem Alike.from {s t : St ι} {x y : Out ι α} (h : Alike G s x y) (e : t.io = s.io) : Alike G t x y :=
  ⟨h.1, fun ht => h.2 (e ▸ ht)⟩

theorem store_alike (l : Loc) (v : Val) (s : St ι) : Alike G s (storeLoc l v s) (storeLoc l v s) := by
  cases l with
  | rom => exact .err
  | var x =>
    simp only [storeLoc]
    cases local? x s.env with
    | none => exact .err
    | some old =>
      dsimp only
      exact .bind .lift fun w t => .ok rfl
  | obj g p =>
    simp only [storeLoc]
    cases (s.mem g).get p with
    | error => exact .err
    | ok tr =>
      cases tr with
      | arr => exact .err
      | struct => exact .err
      | leaf old =>
        dsimp only
        exact .bind .lift fun w t => .bind .lift fun tr t => .ok rfl

/-- A type that is given without calling a function. -/
def plainTy : Ty → Bool
  | .mat (.num _) => true
  | .mat _ => false
  | _ => true

theorem lift_state (x : Except Err α) (s : St ι) : (∃ a, lift x s = .ok a s) ∨ ∃ e, lift x s = .err e := by
  cases x with
  | error e => exact .inr ⟨e, rfl⟩
  | ok b => exact .inl ⟨b, rfl⟩

section
variable {c d : Call ι} (hc : ∀ f args s, Alike G s (c f args s) (d f args s))
include hc

mutual

theorem evalE_alike : ∀ (e : Expr) (s : St ι), Alike G s (evalE c e s) (evalE d e s)
  | .num _, _ => .ok rfl
  | .lit _ _, _ => .ok rfl
  | .str _, _ => .ok rfl
  | .null, _ => .ok rfl
  | .fn _, _ => .ok rfl
  | .reg _, _ => .ok rfl
  | .tab _ _, _ => .ok rfl
  | .load l, s => .bind (evalL_alike l s) fun _ _ => .lift
  | .addr l, s => .bind (evalL_alike l s) fun _ _ => .lift
  | .row p i, s => .bind (evalE_alike p s) fun _ s => .bind (evalE_alike i s) fun _ _ => .bind .lift fun _ _ => .lift
  | .un _ a, s => .bind (evalE_alike a s) fun _ _ => .lift
  | .bin _ a b, s => .bind (evalE_alike a s) fun _ s => .bind (evalE_alike b s) fun _ _ => .lift
  | .and a b, s => .bind (evalE_alike a s) fun _ s =>
      .ite (.bind (evalE_alike b s) fun _ _ => .ok rfl) (.ok rfl)
  | .or a b, s => .bind (evalE_alike a s) fun _ s =>
      .ite (.ok rfl) (.bind (evalE_alike b s) fun _ _ => .ok rfl)
  | .cond e a b, s => .bind (evalE_alike e s) fun _ s => .ite (evalE_alike a s) (evalE_alike b s)
  | .assign l e, s => .bind (evalL_alike l s) fun l s => .bind (evalE_alike e s) fun v s => store_alike l v s
  | .update op l e, s => .bind (evalL_alike l s) fun l s => .bind (evalE_alike e s) fun v s =>
      .bind .lift fun _ _ => .bind .lift fun w s => store_alike l w s
  | .post op l, s => .bind (evalL_alike l s) fun l s => .bind .lift fun _ _ => .bind .lift fun w s =>
      .bind (store_alike l w s) fun _ _ => .ok rfl
  | .cast _ e, s => .bind (evalE_alike e s) fun _ _ => .lift
  | .call f args, s => .bind (evalArgs_alike args s) fun vs s => hc f vs s
  | .callp p args, s => .bind (evalE_alike p s) fun v s => .bind (evalArgs_alike args s) fun vs s => by
      cases v with
      | fn f => exact hc f vs s
      | _ => exact .err

theorem evalL_alike : ∀ (e : LExpr) (s : St ι), Alike G s (evalL c e s) (evalL d e s)
  | .var _, _ => .ok rfl
  | .obj _, _ => .ok rfl
  | .idx a i, s => .bind (evalL_alike a s) fun l s => .bind (evalE_alike i s) fun _ _ => .bind .lift fun _ _ => by
      cases l with
      | obj g p => exact .ok rfl
      | _ => exact .err
  | .pidx p i, s => .bind (evalE_alike p s) fun _ s => .bind (evalE_alike i s) fun _ _ => .bind .lift fun _ _ => .lift
  | .deref p, s => .bind (evalE_alike p s) fun _ _ => .lift
  | .fld a f, s => .bind (evalL_alike a s) fun l s => by
      cases l with
      | obj g p => exact .ok rfl
      | _ => exact .err

theorem evalArgs_alike : ∀ (e : Args) (s : St ι), Alike G s (evalArgs c e s) (evalArgs d e s)
  | .nil, _ => .ok rfl
  | .cons e rest, s => .bind (evalE_alike e s) fun _ s => .bind (evalArgs_alike rest s) fun _ _ => .ok rfl

end

theorem coerce_alike (ty : Ty) (v : Val) (s : St ι) : Alike G s (coerce c ty v s) (coerce d ty v s) := by
  cases ty with
  | int => exact .lift
  | ptr => exact .lift
  | mat cols => exact .bind (evalE_alike hc cols s) fun _ _ => .bind .lift fun _ _ => .lift

omit hc in
theorem turns_alike {c1 c2 : St ι → Out ι Val} {b1 b2 : St ι → Out ι Ctl} {s1 s2 : St ι → Out ι Val}
    (h1 : ∀ s, Alike G s (c1 s) (c2 s)) (h2 : ∀ s, Alike G s (b1 s) (b2 s)) (h3 : ∀ s, Alike G s (s1 s) (s2 s)) :
    ∀ (n n' : Nat), n ≤ n' → ∀ (s : St ι), Alike G s (turns c1 b1 s1 n s) (turns c2 b2 s2 n' s)
  | 0, _, _, _ => .fuel
  | n + 1, n' + 1, hn, s => .bind (h1 s) fun _ s => .ite
      (.bind (h2 s) fun c s => by
        cases c with
        | next => exact .bind (h3 s) fun _ s => turns_alike h1 h2 h3 n n' (Nat.le_of_succ_le_succ hn) s
        | brk => exact .ok rfl
        | ret v => exact .ok rfl)
      (.ok rfl)

mutual

theorem exec_alike {w w' : Nat} (hw : w ≤ w') : ∀ (a : Stmt) (s : St ι), Alike G s (exec c w a s) (exec d w' a s)
  | .skip, _ => .ok rfl
  | .seq a b, s => .bind (exec_alike hw a s) fun c s => by
      cases c with
      | next => exact exec_alike hw b s
      | brk => exact .ok rfl
      | ret v => exact .ok rfl
  | .block a, s => .bind (exec_alike hw a s) fun _ _ => .ok rfl
  | .expr e, s => .bind (evalE_alike hc e s) fun _ _ => .ok rfl
  | .decl ty x e, s => .bind (evalE_alike hc e s) fun _ s => .bind (coerce_alike hc ty _ s) fun _ _ => .ok rfl
  | .declU ty x, s => .ok rfl
  | .ite e a b, s => .bind (evalE_alike hc e s) fun _ s => .ite (exec_alike hw a s) (exec_alike hw b s)
  | .loop e st b, s => turns_alike (evalE_alike hc e) (exec_alike hw b) (evalE_alike hc st) w w' hw s
  | .switch e cs, s => .bind (evalE_alike hc e s) fun _ _ => .bind .lift fun _ s =>
      .bind (execCases_alike hw _ _ cs s) fun c s => by
        cases c with
        | next => exact .ok rfl
        | brk => exact .ok rfl
        | ret v => exact .ok rfl
  | .brk, _ => .ok rfl
  | .ret e, s => .bind (evalE_alike hc e s) fun _ _ => .ok rfl
  | .ret0, _ => .ok rfl

theorem execCases_alike {w w' : Nat} (hw : w ≤ w') (target : Option Int) (on : Bool) : ∀ (a : Cases) (s : St ι),
    Alike G s (execCases c w target on a s) (execCases d w' target on a s)
  | .nil, _ => .ok rfl
  | .cons labels dflt b rest, s => .ite
      (.bind (exec_alike hw b s) fun c s => by
        cases c with
        | next => exact execCases_alike hw target true rest s
        | brk => exact .ok rfl
        | ret v => exact .ok rfl)
      (execCases_alike hw target on rest s)

end

theorem bindArgs_alike : ∀ (ps : List (L × Ty)) (vs : List Val) (s : St ι),
    Alike G s (bindArgs c ps vs s) (bindArgs d ps vs s)
  | [], [], _ => .ok rfl
  | (_, ty) :: ps, v :: vs, s => .bind (coerce_alike hc ty v s) fun _ s => .bind (bindArgs_alike ps vs s) fun _ _ => .ok rfl
  | [], _ :: _, _ => .err
  | _ :: _, [], _ => .err

omit hc in
theorem bindArgs_plain : ∀ (ps : List (L × Ty)), ps.all (plainTy ·.2) = true → ∀ (vs : List Val) (s : St ι),
    bindArgs c ps vs s = bindArgs d ps vs s ∧ ((∃ e, bindArgs c ps vs s = .ok e s) ∨ ∃ e, bindArgs c ps vs s = .err e)
  | [], _, [], s => ⟨rfl, .inl ⟨_, rfl⟩⟩
  | [], _, _ :: _, _ => ⟨rfl, .inr ⟨_, rfl⟩⟩
  | _ :: _, _, [], _ => ⟨rfl, .inr ⟨_, rfl⟩⟩
  | (x, ty) :: ps, h, v :: vs, s => by
    rw [List.all_cons, Bool.and_eq_true] at h
    have key : coerce d ty v s = coerce c ty v s ∧ ((∃ a, coerce c ty v s = .ok a s) ∨ ∃ e, coerce c ty v s = .err e) := by
      cases ty with
      | int => exact ⟨rfl, lift_state _ s⟩
      | ptr => exact ⟨rfl, lift_state _ s⟩
      | mat cols =>
        cases cols with
        | num n => exact ⟨rfl, lift_state _ s⟩
        | _ => cases h.1
    simp only [bindArgs]
    rw [key.1]
    rcases key.2 with ⟨w, e⟩ | ⟨r, e⟩
    · obtain ⟨h1, h2⟩ := bindArgs_plain ps h.2 vs s
      rw [e]
      simp only [Out.bind]
      rw [← h1]
      refine ⟨rfl, ?_⟩
      rcases h2 with ⟨l, e⟩ | ⟨r, e⟩
      · rw [e]; exact .inl ⟨_, rfl⟩
      · rw [e]; exact .inr ⟨_, rfl⟩
    · rw [e]; exact ⟨rfl, .inr ⟨_, rfl⟩⟩

theorem apply_alike {w w' : Nat} (hw : w ≤ w') (f : Fun) (hf : f.params.all (plainTy ·.2) = true) (args : List Val) (s : St ι) :
    Alike G s (apply c w f args s) (apply d w' f args s) := by
  obtain ⟨h1, h2⟩ := bindArgs_plain (c := c) (d := d) f.params hf args s
  unfold apply
  rw [← h1]
  rcases h2 with ⟨l, e⟩ | ⟨r, e⟩
  · rw [e]
    simp only [Out.bind]
    refine .from (s := { s with env := l }) (.bind (exec_alike hc hw _ _) fun k t => ?_) rfl
    generalize f.result = r
    cases k with
    | ret v =>
      cases r with
      | none => exact .ok rfl
      | some ty => exact .from (coerce_alike hc ty v _) rfl
    | next =>
      cases r with
      | none => exact .ok rfl
      | some ty => exact .err
    | brk =>
      cases r with
      | none => exact .ok rfl
      | some ty => exact .err
  · rw [e]; exact .err

end

end Asdf.C
