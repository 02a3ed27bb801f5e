import Verif.Spec.CSource
import Verif.Lemmas.CAttr
import Verif.Lemmas.Basic

/-! # Running the C source on states that correspond to a state of the model

Rules for the simplifier: the meaning of each construct; reading and writing each static
variable. -/

namespace Asdf.C

set_option linter.unusedSimpArgs false

attribute [crun]  Mac.ASDF_BUFFER_INVALID Mac.ASDF_BUFFER_NUM_HANDLES Mac.ASDF_BUFFER_POOL_SIZE
  Mac.ASDF_INVALID_CODE Mac.REPEAT_AUTO Mac.REPEAT_OFF Mac.REPEAT_ON Mac.PHYSICAL_NO_OUT
  Mac.ASDF_PHYSICAL_NUM_RESOURCES Mac.ASDF_VIRTUAL_OUT_DEFAULT_VALUE Mac.V_PULSE_LONG
  Mac.V_PULSE_SHORT Mac.V_TOGGLE Mac.V_SET_HI Mac.V_SET_LO Mac.V_NOFUNC Mac.V_NULL
  Mac.ASDF_VIRTUAL_NUM_RESOURCES Mac.ASDF_HOOK_NULL Mac.ASDF_NUM_HOOKS
  Mac.ASDF_HOOK_ROW_SCANNER Mac.ASDF_HOOK_OUTPUT Mac.ASDF_HOOK_KEY_SCANNER
  Mac.SHIFT_LOCKED_ST Mac.VSHIFT_LED Mac.SHIFT_ON_ST Mac.VCAPS_LED Mac.CAPS_LOCKED_ST
  Mac.CTRL_ON_ST Mac.SHIFT_OFF_ST Mac.CTRL_OFF_ST Mac.CAPS_OFF_ST
  Mac.ASDF_MODIFIERS_SHIFT_MASK Mac.ASDF_MODIFIERS_CAPS_MASK Mac.ASDF_MODIFIERS_CTRL_MASK
  Mac.ASDF_MOD_NUM_MODIFIERS Mac.ASDF_MAX_ROWS Mac.ASDF_MAX_COLS Mac.ASDF_KEYMAP_BIT_0
  Mac.ASDF_KEYMAP_BIT_1 Mac.ASDF_KEYMAP_BIT_2 Mac.ASDF_KEYMAP_BIT_3 Mac.ACTION_SHIFT
  Mac.ACTION_SHIFTLOCK_ON Mac.ACTION_SHIFTLOCK_TOGGLE Mac.ACTION_CAPS Mac.ACTION_CTRL
  Mac.ACTION_REPEAT Mac.ACTION_MAPSEL_0 Mac.ACTION_MAPSEL_1 Mac.ACTION_MAPSEL_2
  Mac.ACTION_MAPSEL_3 Mac.ACTION_STROBE_POLARITY_SELECT Mac.ACTION_AUTOREPEAT_SELECT
  Mac.ACTION_VLED1 Mac.VLED1 Mac.ACTION_VLED2 Mac.VLED2 Mac.ACTION_VLED3 Mac.VLED3
  Mac.ACTION_VOUT1 Mac.VOUT1 Mac.ACTION_VOUT2 Mac.VOUT2 Mac.ACTION_VOUT3 Mac.VOUT3
  Mac.ACTION_VOUT4 Mac.VOUT4 Mac.ACTION_VOUT5 Mac.VOUT5 Mac.ACTION_VOUT6 Mac.VOUT6
  Mac.ACTION_NOTHING Mac.ACTION_HERE_IS Mac.ACTION_FN_1 Mac.ASDF_HOOK_USER_1
  Mac.ACTION_FN_2 Mac.ASDF_HOOK_USER_2 Mac.ACTION_FN_3 Mac.ASDF_HOOK_USER_3 Mac.ACTION_FN_4
  Mac.ASDF_HOOK_USER_4 Mac.ACTION_FN_5 Mac.ASDF_HOOK_USER_5 Mac.ACTION_FN_6
  Mac.ASDF_HOOK_USER_6 Mac.ACTION_FN_7 Mac.ASDF_HOOK_USER_7 Mac.ACTION_FN_8
  Mac.ASDF_HOOK_USER_8 Mac.ACTION_FN_9 Mac.ASDF_HOOK_USER_9 Mac.ACTION_FN_10
  Mac.ASDF_HOOK_USER_10 Mac.ASDF_ACTION Mac.ASDF_DEBOUNCE_TIME_MS Mac.ASDF_HOOK_EACH_SCAN
  Mac.ASDF_KEYCODE_BUFFER_SIZE Mac.ASDF_MESSAGE_BUFFER_SIZE Mac.CLASSIC_NUM_COLS
  Mac.CLASSIC_NUM_ROWS Mac.ASDF_CLASSIC_PRINT_SPEED Mac.MOD_PLAIN_MAP Mac.CLASSIC_PLAIN_MAP
  Mac.MOD_CAPS_MAP Mac.CLASSIC_CAPS_MAP Mac.MOD_SHIFT_MAP Mac.CLASSIC_SHIFT_MAP
  Mac.MOD_CTRL_MAP Mac.CLASSIC_CTRL_MAP Mac.CLASSIC_ID_MESSAGE_HOOK
  Mac.APPLESOFT_KEYBOARD_TEST_HOOK Mac.CLASSIC_POWER_LED_INIT_VALUE Mac.CLASSIC_POWER_LED
  Mac.CLASSIC_VIRTUAL_POWER_LED Mac.CLASSIC_CAPS_LED_INIT_VALUE Mac.CLASSIC_CAPS_LED
  Mac.CLASSIC_RESET_ACTIVE_VALUE Mac.CLASSIC_RESET_OUTPUT Mac.CLASSIC_VIRTUAL_RESET
  Mac.CLASSIC_CLR_SCR_ACTIVE_VALUE Mac.CLASSIC_CLR_SCR_OUT Mac.CLASSIC_VIRTUAL_CLR_SCR
  Mac.ASDF_APPLE2_NUM_COLS Mac.ASDF_APPLE2_NUM_ROWS Mac.APPLE2_PRINT_DELAY
  Mac.APPLE_PLAIN_MAP Mac.APPLE_CAPS_MAP Mac.APPLE_SHIFT_MAP Mac.APPLE_CTRL_MAP
  Mac.APPLESOFT_KEYBOARD_TEST Mac.APPLE2_ID_MESSAGE Mac.APPLE_POWER_LED_INIT_VALUE
  Mac.APPLE_POWER_LED Mac.APPLE_DISABLED_INIT_VALUE Mac.APPLE_DISABLED_LED
  Mac.APPLE_VIRTUAL_DISABLED_LED Mac.APPLE_RESET_ACTIVE_VALUE Mac.APPLE_RESET_OUTPUT
  Mac.APPLE_VIRTUAL_RESET Mac.APPLE_CLR_SCR_ACTIVE_VALUE Mac.APPLE_CLR_SCR_OUTPUT
  Mac.APPLE_VIRTUAL_CLR_SCR Mac.APPLE_CAPS_SHIFT_MAP Mac.APPLESOFT_KEYBOARD_TEST'
  Mac.APPLE2_CAPS_ID_MESSAGE Mac.APPLE_VIRTUAL_POWER_LED Mac.ASDF_SOL_NUM_COLS
  Mac.ASDF_SOL_NUM_ROWS Mac.SOL_PRINT_DELAY Mac.SOL_KBD_LED_OFF Mac.SOL_KBD_LED_UPPERCASE
  Mac.SOL_KBD_LED_SHIFTLOCK Mac.SOL_KBD_TTL_HIGH Mac.SOL_KBD_TTLOUT_LOCAL
  Mac.SOL_KBD_VLOCAL Mac.SOL_KBD_LED_LOCAL Mac.SOL_KBD_TTLOUT_RESET Mac.SOL_KBD_VRESET
  Mac.SOL_KBD_TTLOUT_BREAK Mac.SOL_KBD_VBREAK Mac.SOL_ID_MESSAGE_HOOK Mac.ACE1000_NUM_COLS
  Mac.ACE1000_NUM_ROWS Mac.ASDF_ACE1000_PRINT_SPEED Mac.ACE1000_PLAIN_MAP
  Mac.ACE1000_CAPS_MAP Mac.ACE1000_SHIFT_MAP Mac.ACE1000_CTRL_MAP
  Mac.ACE1000_ID_MESSAGE_HOOK Mac.ACE1000_POWER_LED_INIT_VALUE Mac.ACE1000_POWER_LED
  Mac.ACE1000_VIRTUAL_POWER_LED Mac.ACE1000_CAPS_LED_INIT_VALUE Mac.ACE1000_CAPS_LED
  Mac.ACE1000_RESET_ACTIVE_VALUE Mac.ACE1000_RESET_OUTPUT Mac.ACE1000_VIRTUAL_RESET
  Mac.ACE1000_CLR_SCR_ACTIVE_VALUE Mac.ACE1000_CLR_SCR_OUT Mac.ACE1000_VIRTUAL_CLR_SCR

/-- Run C, with these further rules and facts. -/
syntax "cgo" " [" Lean.Parser.Tactic.simpLemma,* "]" : tactic
macro_rules
  | `(tactic| cgo [$ls,*]) => `(tactic| simp -implicitDefEqProofs (disch := omega) only [crun, ↓reduceIte, Int.reduceLE, Int.reduceLT,
      Int.reduceMod, Int.reduceAdd, Int.reduceSub, Int.reduceMul, Int.reduceNeg, Int.reduceEq,
      Int.reduceToNat, UInt8.reduceToNat, UInt16.reduceToNat, Int.cast_ofNat_Int, Nat.reduceAdd, Nat.reduceSub, Int.reduceBEq, $ls,*])

theorem wrI_eq_ok {α : Type} {l l' : List α} {i : Int} {a : α} :
    wrI l i a = .ok l' ↔ 0 ≤ i ∧ i.toNat < l.length ∧ l.set i.toNat a = l' := by
  unfold wrI
  split
  · simp_all [wr_eq_ok]
  · exact ⟨nofun, fun h => by omega⟩
theorem rdI_eq_ok {α : Type} {l : List α} {i : Int} {a : α} :
    rdI l i = .ok a ↔ 0 ≤ i ∧ l[i.toNat]? = some a := by
  unfold rdI
  split
  · simp_all [rd_eq_ok]
  · exact ⟨nofun, fun h => by omega⟩

/-! ## Constructs -/

theorem run_fn {w n : Nat} {f : F} {b : Fun} {args : List Val} {s : St Io} (h : body f = some b) :
    run prog w (n + 1) f args s = apply (run prog w n) w b args s := by
  simp only [run, prog, h]
/-- Enter the body of a function. -/
macro "cfn" f:ident : tactic => `(tactic| (rw [run_fn (b := $f) rfl]; unfold $f))

theorem run_ext {w n : Nat} {f : F} {args : List Val} {s : St Io} (h : body f = none) :
    run prog w (n + 1) f args s = ext (run prog w n) f args s := by
  simp only [run, prog, h]

section
variable {ι : Type} (call : Call ι) (w : Nat) (s : St ι)

@[crun] theorem evalE_num (n : Int) :
    evalE call (.num n) s =
      .ok (.int .i16 n) s := rfl
@[crun] theorem evalE_lit (t : Ity) (n : Int) :
    evalE call (.lit t n) s =
      .ok (.int t n) s := rfl
@[crun] theorem evalE_str (t : List Code) :
    evalE call (.str t) s =
      .ok (.str t) s := rfl
@[crun] theorem evalE_null  :
    evalE call (.null ) s =
      .ok .null s := rfl
@[crun] theorem evalE_fn (f : F) :
    evalE call (.fn f) s =
      .ok (.fn f) s := rfl
@[crun] theorem evalE_tab (t : List Code) (cols : Int) :
    evalE call (.tab t cols) s =
      .ok (.mat t 0 cols) s := rfl
@[crun] theorem evalE_load (l : LExpr) :
    evalE call (.load l) s =
      (evalL call l s).bind fun l s => lift (loadLoc l s) s := rfl
@[crun] theorem evalE_addr (l : LExpr) :
    evalE call (.addr l) s =
      (evalL call l s).bind fun l s => lift (addrOf l s) s := rfl
@[crun] theorem evalE_row (p : Expr) (i : Expr) :
    evalE call (.row p i) s =
      (evalE call p s).bind fun v s => (evalE call i s).bind fun j s =>
      (lift j.toInt s).bind fun n s => lift (rowOf v n) s := rfl
@[crun] theorem evalE_un (op : UnOp) (a : Expr) :
    evalE call (.un op a) s =
      (evalE call a s).bind fun v s => lift (unop op v) s := rfl
@[crun] theorem evalE_bin (op : BinOp) (a : Expr) (b : Expr) :
    evalE call (.bin op a b) s =
      (evalE call a s).bind fun v s => (evalE call b s).bind fun w s =>
      lift (binop op v w) s := rfl
@[crun] theorem evalE_and (a : Expr) (b : Expr) :
    evalE call (.and a b) s =
      (evalE call a s).bind fun v s =>
      if v.isTrue then (evalE call b s).bind fun w s => .ok (truth w.isTrue) s
      else .ok (truth false) s := rfl
@[crun] theorem evalE_or (a : Expr) (b : Expr) :
    evalE call (.or a b) s =
      (evalE call a s).bind fun v s =>
      if v.isTrue then .ok (truth true) s
      else (evalE call b s).bind fun w s => .ok (truth w.isTrue) s := rfl
@[crun] theorem evalE_cond (c : Expr) (a : Expr) (b : Expr) :
    evalE call (.cond c a b) s =
      (evalE call c s).bind fun v s =>
      if v.isTrue then evalE call a s else evalE call b s := rfl
@[crun] theorem evalE_assign (l : LExpr) (e : Expr) :
    evalE call (.assign l e) s =
      (evalL call l s).bind fun l s => (evalE call e s).bind fun v s => storeLoc l v s := rfl
@[crun] theorem evalE_update (op : BinOp) (l : LExpr) (e : Expr) :
    evalE call (.update op l e) s =
      (evalL call l s).bind fun l s => (evalE call e s).bind fun v s =>
      (lift (loadLoc l s) s).bind fun old s => (lift (binop op old v) s).bind fun w s => storeLoc l w s := rfl
@[crun] theorem evalE_post (op : BinOp) (l : LExpr) :
    evalE call (.post op l) s =
      (evalL call l s).bind fun l s =>
      (lift (loadLoc l s) s).bind fun old s =>
        (lift (binop op old (.int .i16 1)) s).bind fun w s =>
          (storeLoc l w s).bind fun _ s => .ok old s := rfl
@[crun] theorem evalE_cast (t : Ity) (e : Expr) :
    evalE call (.cast t e) s =
      (evalE call e s).bind fun v s => lift (toInt t v) s := rfl
@[crun] theorem evalE_call (f : F) (args : Args) :
    evalE call (.call f args) s =
      (evalArgs call args s).bind fun vs s => call f vs s := rfl
@[crun] theorem evalE_callp (p : Expr) (args : Args) :
    evalE call (.callp p args) s =
      (evalE call p s).bind fun v s => (evalArgs call args s).bind fun vs s =>
      match v with
      | .fn f => call f vs s
      | .null => .err .null
      | _ => .err .badCall := rfl
@[crun] theorem evalL_var (x : L) :
    evalL call (.var x) s =
      .ok (.var x) s := rfl
@[crun] theorem evalL_obj (g : G) :
    evalL call (.obj g) s =
      .ok (.obj g []) s := rfl
@[crun] theorem evalL_idx (a : LExpr) (i : Expr) :
    evalL call (.idx a i) s =
      (evalL call a s).bind fun l s => (evalE call i s).bind fun j s =>
      (lift j.toInt s).bind fun n s =>
        match l with
        | .obj g p => .ok (.obj g (p ++ [.ix n])) s
        | _ => .err .type := rfl
@[crun] theorem evalL_pidx (p : Expr) (i : Expr) :
    evalL call (.pidx p i) s =
      (evalE call p s).bind fun v s => (evalE call i s).bind fun j s =>
      (lift j.toInt s).bind fun n s => lift (ptrAdd v n) s := rfl
@[crun] theorem evalL_deref (p : Expr) :
    evalL call (.deref p) s =
      (evalE call p s).bind fun v s => lift (ptrAdd v 0) s := rfl
@[crun] theorem evalL_fld (a : LExpr) (f : Fld) :
    evalL call (.fld a f) s =
      (evalL call a s).bind fun l s =>
      match l with
      | .obj g p => .ok (.obj g (p ++ [.fld f])) s
      | _ => .err .type := rfl
@[crun] theorem evalArgs_nil  :
    evalArgs call (.nil ) s =
      .ok [] s := rfl
@[crun] theorem evalArgs_cons (e : Expr) (rest : Args) :
    evalArgs call (.cons e rest) s =
      (evalE call e s).bind fun v s => (evalArgs call rest s).bind fun vs s =>
      .ok (v :: vs) s := rfl
@[crun] theorem exec_skip  :
    exec call w (.skip ) s =
      .ok .next s := rfl
@[crun] theorem exec_seq (a : Stmt) (b : Stmt) :
    exec call w (.seq a b) s =
      (exec call w a s).bind fun c s =>
      match c with
      | .next => exec call w b s
      | c => .ok c s := rfl
@[crun] theorem exec_block (a : Stmt) :
    exec call w (.block a) s =
      (exec call w a s).bind fun c s' => .ok c (leave s.env.length s') := rfl
@[crun] theorem exec_expr (e : Expr) :
    exec call w (.expr e) s =
      (evalE call e s).bind fun _ s => .ok .next s := rfl
@[crun] theorem exec_decl (t : Ty) (x : L) (e : Expr) :
    exec call w (.decl t x e) s =
      (evalE call e s).bind fun v s => (coerce call t v s).bind fun v s =>
      .ok .next { s with env := (x, v) :: s.env } := rfl
@[crun] theorem exec_ite (c : Expr) (a : Stmt) (b : Stmt) :
    exec call w (.ite c a b) s =
      (evalE call c s).bind fun v s =>
      if v.isTrue then exec call w a s else exec call w b s := rfl
@[crun] theorem exec_loop (c : Expr) (step : Expr) (body : Stmt) :
    exec call w (.loop c step body) s =
      turns (evalE call c) (exec call w body) (evalE call step) w s := rfl
@[crun] theorem exec_switch (e : Expr) (cases : Cases) :
    exec call w (.switch e cases) s =
      (evalE call e s).bind fun v s => (lift v.toInt s).bind fun n s =>
      (execCases call w (if cases.has n then some n else none) false cases s).bind fun c s =>
        match c with
        | .brk => .ok .next s
        | c => .ok c s := rfl
@[crun] theorem exec_brk  :
    exec call w (.brk ) s =
      .ok .brk s := rfl
@[crun] theorem exec_ret (e : Expr) :
    exec call w (.ret e) s =
      (evalE call e s).bind fun v s => .ok (.ret v) s := rfl
@[crun] theorem exec_ret0  :
    exec call w (.ret0 ) s =
      .ok (.ret .unit) s := rfl
@[crun] theorem execCases_nil (target : Option Int) (on : Bool) :
    execCases call w target on .nil s = .ok .next s := rfl
@[crun] theorem execCases_cons (target : Option Int) (on : Bool) (labels : List Int) (dflt : Bool)
    (body : Stmt) (rest : Cases) : execCases call w target on (.cons labels dflt body rest) s =
      if on || (match target with | some n => labels.contains n | none => dflt) then
        (exec call w body s).bind fun c s =>
          match c with
          | .next => execCases call w target true rest s
          | c => .ok c s
      else execCases call w target on rest s := rfl
@[crun] theorem has_nil (n : Int) : Cases.has n .nil = false := rfl
@[crun] theorem has_cons (n : Int) (labels : List Int) (dflt : Bool) (body : Stmt) (rest : Cases) :
    Cases.has n (.cons labels dflt body rest) = (labels.contains n || rest.has n) := rfl
@[crun] theorem apply_eq (f : Fun) (args : List Val) : apply call w f args s =
    (bindArgs call f.params args s).bind fun e _ =>
      (exec call w f.body ⟨s.mem, e, s.io⟩).bind fun c s' =>
        match c, f.result with
        | .ret v, some t => coerce call t v ⟨s'.mem, s.env, s'.io⟩
        | _, none => .ok .unit ⟨s'.mem, s.env, s'.io⟩
        | _, some _ => .err .type := rfl
@[crun] theorem bindArgs_nil : bindArgs call [] [] s = .ok [] s := rfl
@[crun] theorem bindArgs_cons (x : L) (t : Ty) (l : List (L × Ty)) (v : Val) (vs : List Val) :
    bindArgs call ((x, t) :: l) (v :: vs) s =
      (coerce call t v s).bind fun v s => (bindArgs call l vs s).bind fun e s =>
        .ok ((x, v) :: e) s := rfl
@[crun] theorem coerce_int (t : Ity) (v : Val) : coerce call (.int t) v s = lift (toInt t v) s := rfl
@[crun] theorem coerce_ptr (v : Val) : coerce call .ptr v s = lift (toPtr v) s := rfl
@[crun] theorem coerce_mat (cols : Expr) (v : Val) : coerce call (.mat cols) v s =
    (evalE call cols s).bind fun j s => (lift j.toInt s).bind fun n s => lift (toMat v n) s := rfl
@[crun] theorem val_toInt (t : Ity) (n : Int) : (Val.int t n).toInt = .ok n := rfl
@[crun] theorem local_cons (x y : L) (v : Val) (l : List (L × Val)) :
    local? x ((y, v) :: l) = if y = x then some v else local? x l := rfl
@[crun] theorem setLocal_nil (x : L) (v : Val) : setLocal x v [] = [] := rfl
@[crun] theorem setLocal_cons (x y : L) (v v' : Val) (l : List (L × Val)) :
    setLocal x v ((y, v') :: l) = if y = x then (y, v) :: l else (y, v') :: setLocal x v l := rfl
@[crun] theorem rowOf_mat (t : List Code) (off cols i : Int) :
    rowOf (.mat t off cols) i = .ok (.rom t (off + i * cols)) := rfl
@[crun] theorem toMat_rom (t : List Code) (off c : Int) : toMat (.rom t off) c = .ok (.mat t off c) := rfl
@[crun] theorem toMat_mat (t : List Code) (off c d : Int) : toMat (.mat t off d) c = .ok (.mat t off c) :=
  rfl
@[crun] theorem toMat_null (c : Int) : toMat .null c = .ok .null := rfl

end

section
variable {ι α β : Type} (a : α) (s : St ι)

/-- The simplifier runs the first part first. -/
@[congr] theorem bind_congr (y z : Out ι α) (f : α → St ι → Out ι β) (h : y = z) : y.bind f = z.bind f :=
  congrArg (·.bind f) h
/-- The loops in a statement: condition, step, body. -/
def Stmt.loops : Stmt → List (Expr × Expr × Stmt)
  | .loop c st b => (c, st, b) :: b.loops
  | .seq a b => a.loops ++ b.loops
  | .block a => a.loops
  | .ite _ a b => a.loops ++ b.loops
  | _ => []
@[congr] theorem turns_congr (c : St ι → Out ι Val) (b : St ι → Out ι Ctl) (st : St ι → Out ι Val) (n : Nat)
    (s s' : St ι) (h : s = s') : turns c b st n s = turns c b st n s' := by rw [h]
theorem turns_succ (cond : St ι → Out ι Val) (body : St ι → Out ι Ctl) (step : St ι → Out ι Val) (n : Nat) (s : St ι) :
    turns cond body step (n + 1) s = (cond s).bind fun v s =>
      if v.isTrue then
        (body s).bind fun c s =>
          match c with
          | .next => (step s).bind fun _ s => turns cond body step n s
          | .brk => .ok .next s
          | .ret v => .ok (.ret v) s
      else .ok .next s := rfl
@[crun] theorem bind_ok (f : α → St ι → Out ι β) : (Out.ok a s).bind f = f a s := rfl
@[crun] theorem bind_err (e : Err) (f : α → St ι → Out ι β) : (Out.err e).bind f = .err e := rfl
@[crun] theorem bind_stop (f : α → St ι → Out ι β) : (Out.stop s).bind f = .stop s := rfl
@[crun] theorem lift_ok : lift (.ok a) s = .ok a s := rfl
@[crun] theorem lift_err (e : Err) : lift (.error e : Except Err α) s = .err e := rfl

end

@[crun] theorem isTrue_int (t : Ity) (n : Int) : (Val.int t n).isTrue = decide (n ≠ 0) := rfl
@[crun] theorem isTrue_null : Val.null.isTrue = false := rfl
@[crun] theorem isTrue_fn (f : F) : (Val.fn f).isTrue = true := rfl
@[crun] theorem isTrue_truth (b : Bool) : (truth b).isTrue = b := by cases b <;> rfl
@[crun] theorem toInt_int (t u : Ity) (n : Int) : toInt t (.int u n) = .ok (.int t (conv t n)) := rfl
@[crun] theorem toInt_truth (t : Ity) (b : Bool) :
    toInt t (truth b) = .ok (.int t (if b then 1 else 0)) := by cases b <;> cases t <;> rfl
@[crun] theorem toPtr_fn (f : F) : toPtr (.fn f) = .ok (.fn f) := rfl
@[crun] theorem toPtr_null : toPtr .null = .ok .null := rfl
@[crun] theorem toPtr_rom (t : List Code) (o : Int) : toPtr (.rom t o) = .ok (.rom t o) := rfl
@[crun] theorem unop_not (v : Val) : unop .not v = .ok (truth (!v.isTrue)) := rfl

section
variable (ta tb : Ity) (a b : Int)

@[crun] theorem binop_lt : binop .lt (.int ta a) (.int tb b) =
    .ok (truth (decide (conv (common ta tb) a < conv (common ta tb) b))) := rfl
@[crun] theorem binop_gt : binop .gt (.int ta a) (.int tb b) =
    .ok (truth (decide (conv (common ta tb) b < conv (common ta tb) a))) := rfl
@[crun] theorem binop_le : binop .le (.int ta a) (.int tb b) =
    .ok (truth (decide (conv (common ta tb) a ≤ conv (common ta tb) b))) := rfl
@[crun] theorem binop_ge : binop .ge (.int ta a) (.int tb b) =
    .ok (truth (decide (conv (common ta tb) b ≤ conv (common ta tb) a))) := rfl
@[crun] theorem binop_eq : binop .eq (.int ta a) (.int tb b) =
    .ok (truth (decide (conv (common ta tb) a = conv (common ta tb) b))) := rfl
@[crun] theorem binop_ne : binop .ne (.int ta a) (.int tb b) =
    .ok (truth (decide (conv (common ta tb) a ≠ conv (common ta tb) b))) := rfl
@[crun] theorem binop_add : binop .add (.int ta a) (.int tb b) =
    (fit (common ta tb) (conv (common ta tb) a + conv (common ta tb) b)).map (.int (common ta tb)) :=
  rfl
@[crun] theorem binop_sub : binop .sub (.int ta a) (.int tb b) =
    (fit (common ta tb) (conv (common ta tb) a - conv (common ta tb) b)).map (.int (common ta tb)) :=
  rfl
@[crun] theorem binop_mod : binop .mod (.int ta a) (.int tb b) =
    if conv (common ta tb) b = 0 then .error .divZero
    else (fit (common ta tb) (Int.tmod (conv (common ta tb) a) (conv (common ta tb) b))).map
      (.int (common ta tb)) := rfl
@[crun] theorem fit_u16 (n : Int) : fit .u16 n = .ok (n % 65536) := rfl
@[crun] theorem fit_i16 (n : Int) (h : -32768 ≤ n ∧ n ≤ 32767) : fit .i16 n = .ok n := by
  simp [fit, h]
@[crun] theorem map_ok {α β : Type} (f : α → β) (x : α) :
    (Except.ok x : Except Err α).map f = .ok (f x) := rfl

end

@[crun] theorem common_u8_i16 : common .u8 .i16 = .i16 := rfl
@[crun] theorem common_i16_u8 : common .i16 .u8 = .i16 := rfl
@[crun] theorem common_u8_u8 : common .u8 .u8 = .i16 := rfl
@[crun] theorem common_i8_i8 : common .i8 .i8 = .i16 := rfl
@[crun] theorem common_i8_i16 : common .i8 .i16 = .i16 := rfl
@[crun] theorem common_i16_i8 : common .i16 .i8 = .i16 := rfl
@[crun] theorem common_i16_i16 : common .i16 .i16 = .i16 := rfl
@[crun] theorem common_u16_i16 : common .u16 .i16 = .u16 := rfl
@[crun] theorem common_i16_u16 : common .i16 .u16 = .u16 := rfl

/-! ## Conversions that change nothing -/

@[crun] theorem conv_u8_u8 (c : UInt8) : conv .u8 (c.toNat : Int) = c.toNat := by
  have := c.toNat_lt; simp [conv]; omega
@[crun] theorem conv_i16_u8 (c : UInt8) : conv .i16 (c.toNat : Int) = c.toNat := by
  have := c.toNat_lt; simp [conv, Int.bmod]; omega
@[crun] theorem conv_u16_u8 (c : UInt8) : conv .u16 (c.toNat : Int) = c.toNat := by
  have := c.toNat_lt; simp [conv]; omega
@[crun] theorem conv_u16_u16 (c : UInt16) : conv .u16 (c.toNat : Int) = c.toNat := by
  have := c.toNat_lt; simp [conv]; omega
@[crun] theorem conv_i16 (n : Int) (h : -32768 ≤ n ∧ n ≤ 32767) : conv .i16 n = n := by
  simp [conv, Int.bmod]; omega
@[crun] theorem conv_i8 (n : Int) (h : -128 ≤ n ∧ n ≤ 127) : conv .i8 n = n := by
  simp [conv, Int.bmod]; omega
@[crun] theorem conv_u8 (n : Int) (h : 0 ≤ n ∧ n ≤ 255) : conv .u8 n = n := by
  simp [conv]; omega
@[crun] theorem conv_u16 (n : Int) (h : 0 ≤ n ∧ n ≤ 65535) : conv .u16 n = n := by
  simp [conv]; omega

@[crun] theorem ofInt_u8 (c : UInt8) : UInt8.ofInt (c.toNat : Int) = c := by
  apply UInt8.toNat_inj.1
  have := c.toNat_lt
  simp only [UInt8.ofInt, UInt8.toNat_ofNat']
  omega
@[crun] theorem ofInt_u16 (c : UInt16) : UInt16.ofInt (c.toNat : Int) = c := by
  apply UInt16.toNat_inj.1
  have := c.toNat_lt
  simp only [UInt16.ofInt, UInt16.toNat_ofNat']
  omega
theorem u16_eq (a b : UInt16) : ((a.toNat : Int) = b.toNat) ↔ a = b := by
  rw [← UInt16.toNat_inj]; omega
theorem u16_lt (a b : UInt16) : ((a.toNat : Int) < b.toNat) ↔ a < b := by
  rw [UInt16.lt_iff_toNat_lt]; omega
theorem u8_eq (a b : UInt8) : ((a.toNat : Int) = b.toNat) ↔ a = b := by
  rw [← UInt8.toNat_inj]; omega
theorem u8_lt (a b : UInt8) : ((a.toNat : Int) < b.toNat) ↔ a < b := by
  rw [UInt8.lt_iff_toNat_lt]; omega
theorem sub_u16 (a b : UInt16) : UInt16.ofInt (((a.toNat : Int) - b.toNat) % 65536) = a - b := by
  apply UInt16.toNat_inj.1
  have := a.toNat_lt
  have := b.toNat_lt
  simp only [UInt16.ofInt, UInt16.toNat_ofNat', UInt16.toNat_sub]
  omega
theorem add_u8 (a b : UInt8) : UInt8.ofInt ((a.toNat : Int) + b.toNat) = a + b := by
  apply UInt8.toNat_inj.1
  simp only [UInt8.ofInt, UInt8.toNat_ofNat', UInt8.toNat_add]
  omega
theorem sub_u8 (a b : UInt8) : UInt8.ofInt ((a.toNat : Int) - b.toNat) = a - b := by
  apply UInt8.toNat_inj.1
  have := a.toNat_lt
  have := b.toNat_lt
  simp only [UInt8.ofInt, UInt8.toNat_ofNat', UInt8.toNat_sub]
  omega
theorem ofInt_nat8 (n : Int) (h : 0 ≤ n) : UInt8.ofInt n = UInt8.ofNat n.toNat := by
  obtain ⟨m, rfl⟩ := Int.eq_ofNat_of_zero_le h
  apply UInt8.toNat_inj.1
  simp only [UInt8.ofInt, UInt8.toNat_ofNat', Int.toNat_natCast]
  omega
theorem toNat_ofInt8 (n : Int) : ((UInt8.ofInt n).toNat : Int) = n % 256 := by
  simp [UInt8.ofInt]; omega
theorem funNo_mod (f : VFun) : (funNo f : Int) % 256 = funNo f := by cases f <;> rfl
theorem max_mod (n : Int) : max (n % 256) 0 = n % 256 := by omega
theorem toNat_ofInt16 (n : Int) : ((UInt16.ofInt n).toNat : Int) = n % 65536 := by
  simp [UInt16.ofInt]; omega

/-! ## The state -/

section
variable (x : Extra) (s : State) (env e : List (L × Val)) (ps : List (Option Input)) (keys : Option Input)

attribute [crun] List.nil_append List.cons_append decide_true decide_false ne_eq
  Bool.false_eq_true not_true_eq_false not_false_eq_true Bool.not_true Bool.not_false
  decide_eq_true_eq and_self and_true true_and and_false false_and or_true true_or or_false false_or
  reduceCtorEq Int.toNat_natCast List.length_cons List.length_nil List.drop_succ_cons List.drop_zero
  Option.some.injEq Bool.and_true Bool.true_and Bool.and_false Bool.false_and Bool.or_true
  Bool.true_or Bool.or_false Bool.false_or List.getElem?_set_self List.set_set List.length_set
  List.contains_cons List.contains_nil

@[crun] theorem K_env : (K x s env ps keys).env = env := rfl
@[crun] theorem K_setEnv :
    (⟨(K x s env ps keys).mem, e, (K x s env ps keys).io⟩ : St Io) = K x s e ps keys := rfl
@[crun] theorem K_leave (n : Nat) :
    leave n (K x s env ps keys) = K x s (env.drop (env.length - n)) ps keys := rfl

@[crun] theorem load_var (y : L) : loadLoc (.var y) (K x s env ps keys) =
    match local? y env with
    | some v => .ok v
    | none => .error .type := rfl
@[crun] theorem load_rom (t : List Code) (o : Int) : loadLoc (.rom t o) (K x s env ps keys) = romGet t o :=
  rfl
@[crun] theorem store_var (y : L) (v : Val) : storeLoc (.var y) v (K x s env ps keys) =
    match local? y env with
    | some old => (lift (store old v) (K x s env ps keys)).bind fun w _ =>
        .ok w (K x s (setLocal y w env) ps keys)
    | none => .err .type := by
  unfold storeLoc
  cases h : local? y env with
  | none => simp [K, h]
  | some old => cases h' : store old v <;> simp [K, h, h', lift, Out.bind]
@[crun] theorem store_int (t u : Ity) (m n : Int) :
    store (.int t m) (.int u n) = .ok (.int t (conv t n)) := rfl

@[crun] theorem emit_K (ev : Event) : (K x s env ps keys).emit ev = K x (s.emit ev) env ps keys := rfl

/-! ## Reading static variables -/

theorem load_obj (g : G) (p : List Sel) : loadLoc (.obj g p) (K x s env ps keys) =
    match (encMem x s g).get p with
    | .ok (.leaf v) => .ok v
    | .ok _ => .error .type
    | .error e => .error e := rfl

@[crun] theorem ptrAdd_ix (g : G) (j i : Int) :
    ptrAdd (.ptr g [.ix j]) i = .ok (.obj g [.ix (j + i)]) := rfl
@[crun] theorem addr_pool (j : Int) : addrOf (.obj .buffer_pool [.ix j]) (K x s env ps keys) =
    if 0 ≤ j ∧ j ≤ s.buf.pool.length then .ok (.ptr .buffer_pool [.ix j]) else .error .oob := by
  simp [addrOf, K, encMem, Tree.get]

@[crun] theorem load_repeat_state : loadLoc (.obj .repeat_state []) (K x s env ps keys) =
    .ok (.int .u16 s.rep.state.toNat) := rfl
@[crun] theorem load_base_repeat_state : loadLoc (.obj .base_repeat_state []) (K x s env ps keys) =
    .ok (.int .u16 s.rep.base.toNat) := rfl
@[crun] theorem load_key_repeat_timer : loadLoc (.obj .key_repeat_timer []) (K x s env ps keys) =
    .ok (.int .u16 s.rep.timer.toNat) := rfl
@[crun] theorem load_shift_state : loadLoc (.obj .shift_state []) (K x s env ps keys) =
    .ok (.int .u8 s.mods.shift.toNat) := rfl
@[crun] theorem load_caps_state : loadLoc (.obj .caps_state []) (K x s env ps keys) =
    .ok (.int .u8 s.mods.caps.toNat) := rfl
@[crun] theorem load_ctrl_state : loadLoc (.obj .ctrl_state []) (K x s env ps keys) =
    .ok (.int .u8 s.mods.ctrl.toNat) := rfl
@[crun] theorem load_current_keyboard_index : loadLoc (.obj .current_keyboard_index []) (K x s env ps keys) =
    .ok (.int .u8 s.curIdx.toNat) := rfl
@[crun] theorem load_last_key : loadLoc (.obj .last_key []) (K x s env ps keys) =
    .ok (.int .u8 s.lastKey.toNat) := rfl
@[crun] theorem load_asdf_print_delay_ms : loadLoc (.obj .asdf_print_delay_ms []) (K x s env ps keys) =
    .ok (.int .u16 s.printDelay.toNat) := rfl
@[crun] theorem load_buffer_pool_next_available : loadLoc (.obj .buffer_pool_next_available []) (K x s env ps keys) =
    .ok (.int .i16 s.buf.nextAvail) := rfl
@[crun] theorem load_next_handle : loadLoc (.obj .next_handle []) (K x s env ps keys) =
    .ok (.int .i8 s.buf.nextHandle) := rfl
@[crun] theorem load_asdf_keycode_buffer : loadLoc (.obj .asdf_keycode_buffer []) (K x s env ps keys) =
    .ok (.int .i8 s.kcBuf) := rfl
@[crun] theorem load_asdf_message_buffer : loadLoc (.obj .asdf_message_buffer []) (K x s env ps keys) =
    .ok (.int .i8 s.msgBuf) := rfl

section
variable (a : Int) (h0 : 0 ≤ a)
include h0

@[crun] theorem load_phys_handler :
    loadLoc (.obj .physical_device_table [.ix a, .fld .handler]) (K x s env ps keys) =
      match s.dev.phys[a.toNat]? with
      | some _ => .ok (handler a.toNat)
      | none => .error .oob := by
  cases h : s.dev.phys[a.toNat]? <;> simp [load_obj, encMem, Tree.get, h0, h, encPhys, encVirt, encMap, member, u8]
@[crun] theorem load_phys_shadow :
    loadLoc (.obj .physical_device_table [.ix a, .fld .shadow]) (K x s env ps keys) =
      match s.dev.phys[a.toNat]? with
      | some e => .ok (.int .u8 e.shadow.toNat)
      | none => .error .oob := by
  cases h : s.dev.phys[a.toNat]? <;> simp [load_obj, encMem, Tree.get, h0, h, encPhys, encVirt, encMap, member, u8]
@[crun] theorem load_phys_next :
    loadLoc (.obj .physical_device_table [.ix a, .fld .next]) (K x s env ps keys) =
      match s.dev.phys[a.toNat]? with
      | some e => .ok (.int .u8 e.next)
      | none => .error .oob := by
  cases h : s.dev.phys[a.toNat]? <;> simp [load_obj, encMem, Tree.get, h0, h, encPhys, encVirt, encMap, member, u8]
@[crun] theorem load_virt_physical_device :
    loadLoc (.obj .virtual_device_table [.ix a, .fld .physical_device]) (K x s env ps keys) =
      match s.dev.virt[a.toNat]? with
      | some e => .ok (.int .u8 e.phys)
      | none => .error .oob := by
  cases h : s.dev.virt[a.toNat]? <;> simp [load_obj, encMem, Tree.get, h0, h, encPhys, encVirt, encMap, member, u8]
@[crun] theorem load_virt_function :
    loadLoc (.obj .virtual_device_table [.ix a, .fld .function]) (K x s env ps keys) =
      match s.dev.virt[a.toNat]? with
      | some e => .ok (.int .u8 (funNo e.fn : Nat))
      | none => .error .oob := by
  cases h : s.dev.virt[a.toNat]? <;> simp [load_obj, encMem, Tree.get, h0, h, encPhys, encVirt, encMap, member, u8]
@[crun] theorem load_maps_matrix :
    loadLoc (.obj .keymaps [.ix a, .fld .matrix]) (K x s env ps keys) =
      match s.maps[a.toNat]? with
      | some e => .ok (encMatrix e.matrix)
      | none => .error .oob := by
  cases h : s.maps[a.toNat]? <;> simp [load_obj, encMem, Tree.get, h0, h, encPhys, encVirt, encMap, member, u8]
@[crun] theorem load_maps_rows :
    loadLoc (.obj .keymaps [.ix a, .fld .rows]) (K x s env ps keys) =
      match s.maps[a.toNat]? with
      | some e => .ok (.int .u8 e.rows.toNat)
      | none => .error .oob := by
  cases h : s.maps[a.toNat]? <;> simp [load_obj, encMem, Tree.get, h0, h, encPhys, encVirt, encMap, member, u8]
@[crun] theorem load_maps_cols :
    loadLoc (.obj .keymaps [.ix a, .fld .cols]) (K x s env ps keys) =
      match s.maps[a.toNat]? with
      | some e => .ok (.int .u8 e.cols.toNat)
      | none => .error .oob := by
  cases h : s.maps[a.toNat]? <;> simp [load_obj, encMem, Tree.get, h0, h, encPhys, encVirt, encMap, member, u8]
@[crun] theorem load_bufs_buf :
    loadLoc (.obj .buffers [.ix a, .fld .buf]) (K x s env ps keys) =
      match x.bp[a.toNat]?, s.buf.bufs[a.toNat]? with
      | some v, some _ => .ok v
      | _, _ => .error .oob := by
  cases h : s.buf.bufs[a.toNat]? <;> cases hv : x.bp[a.toNat]? <;>
  simp [load_obj, encMem, Tree.get, h0, h, hv, List.getElem?_zipWith, encBuf, member, u8]
@[crun] theorem load_bufs_size :
    loadLoc (.obj .buffers [.ix a, .fld .size]) (K x s env ps keys) =
      match x.bp[a.toNat]?, s.buf.bufs[a.toNat]? with
      | some _, some e => .ok (.int .i16 e.size)
      | _, _ => .error .oob := by
  cases h : s.buf.bufs[a.toNat]? <;> cases hv : x.bp[a.toNat]? <;>
  simp [load_obj, encMem, Tree.get, h0, h, hv, List.getElem?_zipWith, encBuf, member, u8]
@[crun] theorem load_bufs_head :
    loadLoc (.obj .buffers [.ix a, .fld .head]) (K x s env ps keys) =
      match x.bp[a.toNat]?, s.buf.bufs[a.toNat]? with
      | some _, some e => .ok (.int .u8 e.head.toNat)
      | _, _ => .error .oob := by
  cases h : s.buf.bufs[a.toNat]? <;> cases hv : x.bp[a.toNat]? <;>
  simp [load_obj, encMem, Tree.get, h0, h, hv, List.getElem?_zipWith, encBuf, member, u8]
@[crun] theorem load_bufs_tail :
    loadLoc (.obj .buffers [.ix a, .fld .tail]) (K x s env ps keys) =
      match x.bp[a.toNat]?, s.buf.bufs[a.toNat]? with
      | some _, some e => .ok (.int .u8 e.tail.toNat)
      | _, _ => .error .oob := by
  cases h : s.buf.bufs[a.toNat]? <;> cases hv : x.bp[a.toNat]? <;>
  simp [load_obj, encMem, Tree.get, h0, h, hv, List.getElem?_zipWith, encBuf, member, u8]
@[crun] theorem load_bufs_count :
    loadLoc (.obj .buffers [.ix a, .fld .count]) (K x s env ps keys) =
      match x.bp[a.toNat]?, s.buf.bufs[a.toNat]? with
      | some _, some e => .ok (.int .u8 e.count.toNat)
      | _, _ => .error .oob := by
  cases h : s.buf.bufs[a.toNat]? <;> cases hv : x.bp[a.toNat]? <;>
  simp [load_obj, encMem, Tree.get, h0, h, hv, List.getElem?_zipWith, encBuf, member, u8]
@[crun] theorem load_pool :
    loadLoc (.obj .buffer_pool [.ix a]) (K x s env ps keys) =
      match s.buf.pool[a.toNat]? with
      | some c => .ok (.int .u8 c.toNat)
      | none => .error .oob := by
  cases h : s.buf.pool[a.toNat]? <;> simp [load_obj, encMem, Tree.get, h0, h, u8]
@[crun] theorem load_stable :
    loadLoc (.obj .last_stable_key_state [.ix a]) (K x s env ps keys) =
      match s.stable[a.toNat]? with
      | some c => .ok (.int .u8 c.toNat)
      | none => .error .oob := by
  cases h : s.stable[a.toNat]? <;> simp [load_obj, encMem, Tree.get, h0, h, u8]
@[crun] theorem load_hook :
    loadLoc (.obj .hook_map [.ix a]) (K x s env ps keys) =
      match x.hk[a.toNat]? with
      | some v => .ok v
      | none => .error .oob := by
  cases h : x.hk[a.toNat]? <;> simp [load_obj, encMem, Tree.get, h0, h]
@[crun] theorem load_counter (b : Int) (hb : 0 ≤ b) :
    loadLoc (.obj .debounce_counters [.ix a, .ix b]) (K x s env ps keys) =
      match s.counters[a.toNat]? with
      | some r =>
        match r[b.toNat]? with
        | some c => .ok (.int .u8 c.toNat)
        | none => .error .oob
      | none => .error .oob := by
  cases hr : s.counters[a.toNat]? with
  | none => simp [load_obj, encMem, Tree.get, h0, hr]
  | some r => cases h : r[b.toNat]? <;> simp [load_obj, encMem, Tree.get, h0, hb, hr, h, u8]

end

/-! ## Writing static variables -/

theorem store_obj (x' : Extra) (g : G) (p : List Sel) (v old w : Val) (t : Tree) (s' : State)
    (h1 : (encMem x s g).get p = .ok (.leaf old)) (h2 : store old v = .ok w)
    (h3 : (encMem x s g).set p w = .ok t)
    (h4 : setMem (encMem x s) g t = encMem x' s') (h5 : s'.dev.trace = s.dev.trace) :
    storeLoc (.obj g p) v (K x s env ps keys) = .ok w (K x' s' env ps keys) := by
  simp [storeLoc, K, h1, h2, h3, h4, h5, lift, Out.bind]

/-- A scalar variable. -/
macro "cstore" : tactic =>
  `(tactic| (refine store_obj _ _ _ _ _ _ _ _ _ _ _ _ _ rfl
               (by simp [store, conv, toNat_ofInt8, toNat_ofInt16]) rfl ?_ rfl
             funext g
             cases g <;> simp [setMem, encMem, u8, u16, conv, toNat_ofInt8, toNat_ofInt16]))

theorem zipWith_set_right {α β γ : Type} (f : α → β → γ) {l : List α} {m : List β} {i : Nat} {b : β}
    {v : α} (hv : l[i]? = some v) :
    (List.zipWith f l m).set i (f v b) = List.zipWith f l (m.set i b) := by
  apply List.ext_getElem?
  intro j
  by_cases hj : i = j
  · subst hj
    obtain ⟨hl, hx⟩ := List.getElem?_eq_some_iff.1 hv
    by_cases hm : i < m.length
    · have : i < min l.length m.length := by omega
      simp [List.getElem?_set, List.getElem?_zipWith, hv, hm, this, hx]
    · have : ¬ i < min l.length m.length := by omega
      simp [List.getElem?_set, List.getElem?_zipWith, hv, hm, this, hx]
  · simp [List.getElem?_set, List.getElem?_zipWith, hj]
theorem zipWith_set_left {α β γ : Type} (f : α → β → γ) {l : List α} {m : List β} {i : Nat} {a : α}
    {e : β} (he : m[i]? = some e) :
    (List.zipWith f l m).set i (f a e) = List.zipWith f (l.set i a) m := by
  apply List.ext_getElem?
  intro j
  by_cases hj : i = j
  · subst hj
    obtain ⟨hl, hx⟩ := List.getElem?_eq_some_iff.1 he
    by_cases hm : i < l.length
    · have : i < min l.length m.length := by omega
      simp [List.getElem?_set, List.getElem?_zipWith, he, hm, this, hx]
    · have : ¬ i < min l.length m.length := by omega
      simp [List.getElem?_set, List.getElem?_zipWith, he, hm, this, hx]
  · simp [List.getElem?_set, List.getElem?_zipWith, hj]

@[crun] theorem store_repeat_state (t : Ity) (n : Int) :
    storeLoc (.obj .repeat_state []) (.int t n) (K x s env ps keys) =
      .ok (.int .u16 (UInt16.ofInt n).toNat)
        (K x { s with rep := { s.rep with state := UInt16.ofInt n } } env ps keys) := by
  cstore
@[crun] theorem store_base_repeat_state (t : Ity) (n : Int) :
    storeLoc (.obj .base_repeat_state []) (.int t n) (K x s env ps keys) =
      .ok (.int .u16 (UInt16.ofInt n).toNat)
        (K x { s with rep := { s.rep with base := UInt16.ofInt n } } env ps keys) := by
  cstore
@[crun] theorem store_key_repeat_timer (t : Ity) (n : Int) :
    storeLoc (.obj .key_repeat_timer []) (.int t n) (K x s env ps keys) =
      .ok (.int .u16 (UInt16.ofInt n).toNat)
        (K x { s with rep := { s.rep with timer := UInt16.ofInt n } } env ps keys) := by
  cstore
@[crun] theorem store_shift_state (t : Ity) (n : Int) :
    storeLoc (.obj .shift_state []) (.int t n) (K x s env ps keys) =
      .ok (.int .u8 (UInt8.ofInt n).toNat)
        (K x { s with mods := { s.mods with shift := UInt8.ofInt n } } env ps keys) := by
  cstore
@[crun] theorem store_caps_state (t : Ity) (n : Int) :
    storeLoc (.obj .caps_state []) (.int t n) (K x s env ps keys) =
      .ok (.int .u8 (UInt8.ofInt n).toNat)
        (K x { s with mods := { s.mods with caps := UInt8.ofInt n } } env ps keys) := by
  cstore
@[crun] theorem store_ctrl_state (t : Ity) (n : Int) :
    storeLoc (.obj .ctrl_state []) (.int t n) (K x s env ps keys) =
      .ok (.int .u8 (UInt8.ofInt n).toNat)
        (K x { s with mods := { s.mods with ctrl := UInt8.ofInt n } } env ps keys) := by
  cstore
@[crun] theorem store_current_keyboard_index (t : Ity) (n : Int) :
    storeLoc (.obj .current_keyboard_index []) (.int t n) (K x s env ps keys) =
      .ok (.int .u8 (UInt8.ofInt n).toNat)
        (K x { s with curIdx := UInt8.ofInt n } env ps keys) := by
  cstore
@[crun] theorem store_last_key (t : Ity) (n : Int) :
    storeLoc (.obj .last_key []) (.int t n) (K x s env ps keys) =
      .ok (.int .u8 (UInt8.ofInt n).toNat)
        (K x { s with lastKey := UInt8.ofInt n } env ps keys) := by
  cstore
@[crun] theorem store_asdf_print_delay_ms (t : Ity) (n : Int) :
    storeLoc (.obj .asdf_print_delay_ms []) (.int t n) (K x s env ps keys) =
      .ok (.int .u16 (UInt16.ofInt n).toNat)
        (K x { s with printDelay := UInt16.ofInt n } env ps keys) := by
  cstore
@[crun] theorem store_buffer_pool_next_available (t : Ity) (n : Int) :
    storeLoc (.obj .buffer_pool_next_available []) (.int t n) (K x s env ps keys) =
      .ok (.int .i16 (conv .i16 n))
        (K x { s with buf := { s.buf with nextAvail := conv .i16 n } } env ps keys) := by
  cstore
@[crun] theorem store_next_handle (t : Ity) (n : Int) :
    storeLoc (.obj .next_handle []) (.int t n) (K x s env ps keys) =
      .ok (.int .i8 (conv .i8 n))
        (K x { s with buf := { s.buf with nextHandle := conv .i8 n } } env ps keys) := by
  cstore
@[crun] theorem store_asdf_keycode_buffer (t : Ity) (n : Int) :
    storeLoc (.obj .asdf_keycode_buffer []) (.int t n) (K x s env ps keys) =
      .ok (.int .i8 (conv .i8 n))
        (K x { s with kcBuf := conv .i8 n } env ps keys) := by
  cstore
@[crun] theorem store_asdf_message_buffer (t : Ity) (n : Int) :
    storeLoc (.obj .asdf_message_buffer []) (.int t n) (K x s env ps keys) =
      .ok (.int .i8 (conv .i8 n))
        (K x { s with msgBuf := conv .i8 n } env ps keys) := by
  cstore

section
variable (a : Int) (h0 : 0 ≤ a)

/-- An element of an array. -/
macro "cstoreIn" h:ident : tactic =>
  `(tactic| (
    obtain ⟨hlt, he⟩ := List.getElem?_eq_some_iff.1 $h
    subst he
    refine store_obj _ _ _ _ _ _ _ _ _ _ _ _ _
      (by simp [encMem, Tree.get, encPhys, encVirt, encMap, member, u8, *]; rfl)
      (by simp [store, conv, toNat_ofInt8, funNo_mod, encMatrix])
      (by simp [encMem, Tree.set, encPhys, encVirt, encMap, member, setMember, store, Except.map,
            u8, *]; rfl) ?_ rfl
    funext g
    cases g <;> simp [setMem, encMem, u8, conv, toNat_ofInt8, max_mod, funNo_mod, encPhys, encVirt, encMap, *]))

include h0

@[crun] theorem store_phys_shadow (t : Ity) (n : Int) :
    storeLoc (.obj .physical_device_table [.ix a, .fld .shadow]) (.int t n) (K x s env ps keys) =
      match s.dev.phys[a.toNat]? with
      | some e => .ok (.int .u8 (UInt8.ofInt n).toNat)
        (K x { s with dev := { s.dev with phys := (s.dev.phys.set a.toNat { e with shadow := UInt8.ofInt n }) } } env ps keys)
      | none => .err .oob := by
  cases h : s.dev.phys[a.toNat]? with
  | none => simp [storeLoc, K, encMem, Tree.get, h, h0]
  | some e => simp only []; cstoreIn h
@[crun] theorem store_phys_next (t : Ity) (n : Int) :
    storeLoc (.obj .physical_device_table [.ix a, .fld .next]) (.int t n) (K x s env ps keys) =
      match s.dev.phys[a.toNat]? with
      | some e => .ok (.int .u8 (UInt8.ofInt n).toNat)
        (K x { s with dev := { s.dev with phys := (s.dev.phys.set a.toNat { e with next := (n % 256).toNat }) } } env ps keys)
      | none => .err .oob := by
  cases h : s.dev.phys[a.toNat]? with
  | none => simp [storeLoc, K, encMem, Tree.get, h, h0]
  | some e => simp only []; cstoreIn h
@[crun] theorem store_virt_physical_device (t : Ity) (n : Int) :
    storeLoc (.obj .virtual_device_table [.ix a, .fld .physical_device]) (.int t n) (K x s env ps keys) =
      match s.dev.virt[a.toNat]? with
      | some e => .ok (.int .u8 (UInt8.ofInt n).toNat)
        (K x { s with dev := { s.dev with virt := (s.dev.virt.set a.toNat { e with phys := (n % 256).toNat }) } } env ps keys)
      | none => .err .oob := by
  cases h : s.dev.virt[a.toNat]? with
  | none => simp [storeLoc, K, encMem, Tree.get, h, h0]
  | some e => simp only []; cstoreIn h
@[crun] theorem store_maps_rows (t : Ity) (n : Int) :
    storeLoc (.obj .keymaps [.ix a, .fld .rows]) (.int t n) (K x s env ps keys) =
      match s.maps[a.toNat]? with
      | some e => .ok (.int .u8 (UInt8.ofInt n).toNat)
        (K x { s with maps := (s.maps.set a.toNat { e with rows := UInt8.ofInt n }) } env ps keys)
      | none => .err .oob := by
  cases h : s.maps[a.toNat]? with
  | none => simp [storeLoc, K, encMem, Tree.get, h, h0]
  | some e => simp only []; cstoreIn h
@[crun] theorem store_maps_cols (t : Ity) (n : Int) :
    storeLoc (.obj .keymaps [.ix a, .fld .cols]) (.int t n) (K x s env ps keys) =
      match s.maps[a.toNat]? with
      | some e => .ok (.int .u8 (UInt8.ofInt n).toNat)
        (K x { s with maps := (s.maps.set a.toNat { e with cols := UInt8.ofInt n }) } env ps keys)
      | none => .err .oob := by
  cases h : s.maps[a.toNat]? with
  | none => simp [storeLoc, K, encMem, Tree.get, h, h0]
  | some e => simp only []; cstoreIn h
@[crun] theorem store_virt_function (t : Ity) (f : VFun) :
    storeLoc (.obj .virtual_device_table [.ix a, .fld .function]) (.int t (funNo f)) (K x s env ps keys) =
      match s.dev.virt[a.toNat]? with
      | some e => .ok (.int .u8 (funNo f))
        (K x { s with dev := { s.dev with virt := (s.dev.virt.set a.toNat { e with fn := f }) } }
          env ps keys)
      | none => .err .oob := by
  cases h : s.dev.virt[a.toNat]? with
  | none => simp [storeLoc, K, encMem, Tree.get, h, h0]
  | some e => simp only []; cstoreIn h
@[crun] theorem store_virt_nofunc (t : Ity) :
    storeLoc (.obj .virtual_device_table [.ix a, .fld .function]) (.int t 0) (K x s env ps keys) =
      match s.dev.virt[a.toNat]? with
      | some e => .ok (.int .u8 0)
        (K x { s with dev := { s.dev with virt := (s.dev.virt.set a.toNat { e with fn := .nofunc }) } }
          env ps keys)
      | none => .err .oob :=
  store_virt_function x s env ps keys a h0 t .nofunc
theorem store_maps_matrix (m : Option (List Code)) :
    storeLoc (.obj .keymaps [.ix a, .fld .matrix]) (encMatrix m) (K x s env ps keys) =
      match s.maps[a.toNat]? with
      | some e => .ok (encMatrix m)
        (K x { s with maps := (s.maps.set a.toNat { e with matrix := m }) } env ps keys)
      | none => .err .oob := by
  cases h : s.maps[a.toNat]? with
  | none => simp [storeLoc, K, encMem, Tree.get, h, h0]
  | some e =>
    obtain ⟨q, r, c⟩ := e
    cases q <;> cases m <;>
    · refine store_obj _ _ _ _ _ _ _ _ _ _ _ _ _
        (by simp [encMem, Tree.get, encMap, member, u8, *]; rfl)
        (by simp [store, encMatrix])
        (by simp [encMem, Tree.set, encMap, encMatrix, member, setMember, store, Except.map,
              u8, *]; rfl) ?_ rfl
      funext g
      cases g <;> simp [setMem, encMem, u8, encMap, encMatrix]
@[crun] theorem store_maps_matrix_some (m : List Code) :
    storeLoc (.obj .keymaps [.ix a, .fld .matrix]) (.rom m 0) (K x s env ps keys) =
      match s.maps[a.toNat]? with
      | some e => .ok (.rom m 0)
        (K x { s with maps := (s.maps.set a.toNat { e with matrix := some m }) } env ps keys)
      | none => .err .oob :=
  store_maps_matrix x s env ps keys a h0 (some m)
@[crun] theorem store_maps_matrix_none :
    storeLoc (.obj .keymaps [.ix a, .fld .matrix]) .null (K x s env ps keys) =
      match s.maps[a.toNat]? with
      | some e => .ok .null
        (K x { s with maps := (s.maps.set a.toNat { e with matrix := none }) } env ps keys)
      | none => .err .oob :=
  store_maps_matrix x s env ps keys a h0 none
@[crun] theorem store_pool (t : Ity) (n : Int) :
    storeLoc (.obj .buffer_pool [.ix a]) (.int t n) (K x s env ps keys) =
      match s.buf.pool[a.toNat]? with
      | some _ => .ok (.int .u8 (UInt8.ofInt n).toNat)
        (K x { s with buf := { s.buf with pool := s.buf.pool.set a.toNat (UInt8.ofInt n) } }
          env ps keys)
      | none => .err .oob := by
  cases h : s.buf.pool[a.toNat]? with
  | none => simp [storeLoc, K, encMem, Tree.get, h, h0]
  | some e => simp only []; cstoreIn h
@[crun] theorem store_stable (t : Ity) (n : Int) :
    storeLoc (.obj .last_stable_key_state [.ix a]) (.int t n) (K x s env ps keys) =
      match s.stable[a.toNat]? with
      | some _ => .ok (.int .u8 (UInt8.ofInt n).toNat)
        (K x { s with stable := s.stable.set a.toNat (UInt8.ofInt n) } env ps keys)
      | none => .err .oob := by
  cases h : s.stable[a.toNat]? with
  | none => simp [storeLoc, K, encMem, Tree.get, h, h0]
  | some e => simp only []; cstoreIn h
@[crun] theorem store_counter (b : Int) (hb : 0 ≤ b) (t : Ity) (n : Int) :
    storeLoc (.obj .debounce_counters [.ix a, .ix b]) (.int t n) (K x s env ps keys) =
      match s.counters[a.toNat]? with
      | some r =>
        match r[b.toNat]? with
        | some _ => .ok (.int .u8 (UInt8.ofInt n).toNat)
          (K x { s with counters := s.counters.set a.toNat (r.set b.toNat (UInt8.ofInt n)) }
            env ps keys)
        | none => .err .oob
      | none => .err .oob := by
  cases hr : s.counters[a.toNat]? with
  | none => simp [storeLoc, K, encMem, Tree.get, hr, h0]
  | some r =>
    cases h : r[b.toNat]? with
    | none => simp [storeLoc, K, encMem, Tree.get, hr, h, h0, hb]
    | some c =>
      simp only [h]
      refine store_obj _ _ _ _ _ _ _ _ _ _ _ _ _
        (by simp [encMem, Tree.get, u8, *]; rfl) (by simp [store, conv, toNat_ofInt8]) 
        (by simp [encMem, Tree.set, store, Except.map, u8, *]; rfl) ?_ rfl
      funext g
      cases g <;> simp [setMem, encMem, u8, conv, toNat_ofInt8, List.map_set]
@[crun] theorem store_bufs_size (t : Ity) (n : Int) :
    storeLoc (.obj .buffers [.ix a, .fld .size]) (.int t n) (K x s env ps keys) =
      match x.bp[a.toNat]?, s.buf.bufs[a.toNat]? with
      | some _, some e => .ok (.int .i16 (conv .i16 n))
        (K x { s with buf := { s.buf with
          bufs := (s.buf.bufs.set a.toNat { e with size := (conv .i16 n) }) } } env ps keys)
      | _, _ => .err .oob := by
  cases h : s.buf.bufs[a.toNat]? with
  | none => cases hv : x.bp[a.toNat]? <;>
      simp [storeLoc, K, encMem, Tree.get, h, h0, hv, List.getElem?_zipWith]
  | some e =>
    cases hv : x.bp[a.toNat]? with
    | none => simp [storeLoc, K, encMem, Tree.get, h, h0, hv, List.getElem?_zipWith]
    | some v =>
      simp only []
      refine store_obj _ _ _ _ _ _ _ _ _ _ _ _ _
        (by simp [encMem, Tree.get, List.getElem?_zipWith, encBuf, member, u8, *]; rfl)
        (by simp [store, conv, toNat_ofInt8]) 
        (by simp [encMem, Tree.set, List.getElem?_zipWith, encBuf, member, setMember, store,
              Except.map, u8, *]; rfl) ?_ rfl
      funext g
      cases g <;> simp [setMem, encMem, u8, conv, toNat_ofInt8]
      rw [← zipWith_set_right _ hv]
      simp [encBuf, u8, toNat_ofInt8]
@[crun] theorem store_bufs_head (t : Ity) (n : Int) :
    storeLoc (.obj .buffers [.ix a, .fld .head]) (.int t n) (K x s env ps keys) =
      match x.bp[a.toNat]?, s.buf.bufs[a.toNat]? with
      | some _, some e => .ok (.int .u8 (UInt8.ofInt n).toNat)
        (K x { s with buf := { s.buf with
          bufs := (s.buf.bufs.set a.toNat { e with head := (UInt8.ofInt n) }) } } env ps keys)
      | _, _ => .err .oob := by
  cases h : s.buf.bufs[a.toNat]? with
  | none => cases hv : x.bp[a.toNat]? <;>
      simp [storeLoc, K, encMem, Tree.get, h, h0, hv, List.getElem?_zipWith]
  | some e =>
    cases hv : x.bp[a.toNat]? with
    | none => simp [storeLoc, K, encMem, Tree.get, h, h0, hv, List.getElem?_zipWith]
    | some v =>
      simp only []
      refine store_obj _ _ _ _ _ _ _ _ _ _ _ _ _
        (by simp [encMem, Tree.get, List.getElem?_zipWith, encBuf, member, u8, *]; rfl)
        (by simp [store, conv, toNat_ofInt8]) 
        (by simp [encMem, Tree.set, List.getElem?_zipWith, encBuf, member, setMember, store,
              Except.map, u8, *]; rfl) ?_ rfl
      funext g
      cases g <;> simp [setMem, encMem, u8, conv, toNat_ofInt8]
      rw [← zipWith_set_right _ hv]
      simp [encBuf, u8, toNat_ofInt8]
@[crun] theorem store_bufs_tail (t : Ity) (n : Int) :
    storeLoc (.obj .buffers [.ix a, .fld .tail]) (.int t n) (K x s env ps keys) =
      match x.bp[a.toNat]?, s.buf.bufs[a.toNat]? with
      | some _, some e => .ok (.int .u8 (UInt8.ofInt n).toNat)
        (K x { s with buf := { s.buf with
          bufs := (s.buf.bufs.set a.toNat { e with tail := (UInt8.ofInt n) }) } } env ps keys)
      | _, _ => .err .oob := by
  cases h : s.buf.bufs[a.toNat]? with
  | none => cases hv : x.bp[a.toNat]? <;>
      simp [storeLoc, K, encMem, Tree.get, h, h0, hv, List.getElem?_zipWith]
  | some e =>
    cases hv : x.bp[a.toNat]? with
    | none => simp [storeLoc, K, encMem, Tree.get, h, h0, hv, List.getElem?_zipWith]
    | some v =>
      simp only []
      refine store_obj _ _ _ _ _ _ _ _ _ _ _ _ _
        (by simp [encMem, Tree.get, List.getElem?_zipWith, encBuf, member, u8, *]; rfl)
        (by simp [store, conv, toNat_ofInt8]) 
        (by simp [encMem, Tree.set, List.getElem?_zipWith, encBuf, member, setMember, store,
              Except.map, u8, *]; rfl) ?_ rfl
      funext g
      cases g <;> simp [setMem, encMem, u8, conv, toNat_ofInt8]
      rw [← zipWith_set_right _ hv]
      simp [encBuf, u8, toNat_ofInt8]
@[crun] theorem store_bufs_count (t : Ity) (n : Int) :
    storeLoc (.obj .buffers [.ix a, .fld .count]) (.int t n) (K x s env ps keys) =
      match x.bp[a.toNat]?, s.buf.bufs[a.toNat]? with
      | some _, some e => .ok (.int .u8 (UInt8.ofInt n).toNat)
        (K x { s with buf := { s.buf with
          bufs := (s.buf.bufs.set a.toNat { e with count := (UInt8.ofInt n) }) } } env ps keys)
      | _, _ => .err .oob := by
  cases h : s.buf.bufs[a.toNat]? with
  | none => cases hv : x.bp[a.toNat]? <;>
      simp [storeLoc, K, encMem, Tree.get, h, h0, hv, List.getElem?_zipWith]
  | some e =>
    cases hv : x.bp[a.toNat]? with
    | none => simp [storeLoc, K, encMem, Tree.get, h, h0, hv, List.getElem?_zipWith]
    | some v =>
      simp only []
      refine store_obj _ _ _ _ _ _ _ _ _ _ _ _ _
        (by simp [encMem, Tree.get, List.getElem?_zipWith, encBuf, member, u8, *]; rfl)
        (by simp [store, conv, toNat_ofInt8]) 
        (by simp [encMem, Tree.set, List.getElem?_zipWith, encBuf, member, setMember, store,
              Except.map, u8, *]; rfl) ?_ rfl
      funext g
      cases g <;> simp [setMem, encMem, u8, conv, toNat_ofInt8]
      rw [← zipWith_set_right _ hv]
      simp [encBuf, u8, toNat_ofInt8]
/-- The pointer of a buffer never is a number. -/
theorem store_bufs_buf (g : G) (p : List Sel) (v e) (h : s.buf.bufs[a.toNat]? = some e)
    (hv : x.bp[a.toNat]? = some v) (hn : ∀ t n, v ≠ .int t n) :
    storeLoc (.obj .buffers [.ix a, .fld .buf]) (.ptr g p) (K x s env ps keys) =
      .ok (.ptr g p) (K { x with bp := x.bp.set a.toNat (.ptr g p) } s env ps keys) := by
  have hs : store v (.ptr g p) = .ok (.ptr g p) := by
    cases v <;> first | rfl | exact absurd rfl (hn _ _)
  refine store_obj _ _ _ _ _ _ _ _ _ v _ _ _
    (by simp [encMem, Tree.get, List.getElem?_zipWith, encBuf, member, *]) hs
    (by simp [encMem, Tree.set, List.getElem?_zipWith, encBuf, member, setMember,
              Except.map, store, *]; rfl) ?_ rfl
  funext g
  cases g <;> simp [setMem, encMem]
  exact zipWith_set_left _ h
theorem store_bufs_buf' (hn : ∀ v ∈ x.bp, ∀ t n, v ≠ .int t n) (g : G) (p : List Sel) :
    storeLoc (.obj .buffers [.ix a, .fld .buf]) (.ptr g p) (K x s env ps keys) =
      match x.bp[a.toNat]?, s.buf.bufs[a.toNat]? with
      | some _, some _ => .ok (.ptr g p) (K { x with bp := x.bp.set a.toNat (.ptr g p) } s env ps keys)
      | _, _ => .err .oob := by
  cases h : x.bp[a.toNat]? with
  | none => simp [storeLoc, K, encMem, Tree.get, h0, h, List.getElem?_zipWith]
  | some v =>
    cases h' : s.buf.bufs[a.toNat]? with
    | none => simp [storeLoc, K, encMem, Tree.get, h0, h, h', List.getElem?_zipWith]
    | some e => exact store_bufs_buf _ _ _ _ _ a h0 _ _ _ _ h' h (hn _ (List.mem_of_getElem? h))
/-- A hook never holds a number. -/
theorem store_hook (v) (h : x.hk[a.toNat]? = some v) (hv : ∀ t n, v ≠ .int t n) (f : F) :
    storeLoc (.obj .hook_map [.ix a]) (.fn f) (K x s env ps keys) =
      .ok (.fn f) (K { x with hk := x.hk.set a.toNat (.fn f) } s env ps keys) := by
  have hs : store v (.fn f) = .ok (.fn f) := by cases v <;> first | rfl | exact absurd rfl (hv _ _)
  refine store_obj _ _ _ _ _ _ _ _ _ v _ _ _ (by simp [encMem, Tree.get, *]) hs
      (by simp [encMem, Tree.set, Except.map, *]; rfl) ?_ rfl
  funext g
  cases g <;> simp [setMem, encMem]

end

end

end Asdf.C
