import Verif.Model.Basic

/-! # `asdf_hook.c`: the hook table -/

namespace Asdf

/-! Hook ids `asdf_hook_id_t` (asdf_hook.h:30-48). -/

/-- asdf_hook.h:31 -/
def HOOK_NULL : Nat := 0
/-- asdf_hook.h:32 -/
def HOOK_KEY_SCANNER : Nat := 1
/-- asdf_hook.h:33 -/
def HOOK_ROW_SCANNER : Nat := 2
/-- asdf_hook.h:34 -/
def HOOK_OUTPUT : Nat := 3
/-- asdf_hook.h:35 -/
def HOOK_EACH_SCAN : Nat := 4
/-- `ASDF_HOOK_USER_1`; `USER_n` is `USER_1 + n - 1` (asdf_hook.h:36-46). -/
def HOOK_USER_1 : Nat := 5

/-- The functions a hook can point to: the null pointer of the static
initialisation, `asdf_hook_null_func`, the default row scanner and output
function of the architecture, `asdf_keyscan`, and the message functions of the
shipped keymaps (each of which calls `asdf_print` with one constant text).
(Modelling device for C function pointers.) -/
inductive HookFn where
  | nullPtr
  | null
  | archReadRow
  | archSendCode
  | keyscan
  | print (text : List UInt8)
  deriving DecidableEq, Repr

/-- Static (zero) initialisation of `hook_map` (asdf_hook.c:42). -/
def hooksZero : List HookFn := List.replicate NUM_HOOKS .nullPtr

/-- `asdf_hook_valid_id` (asdf_hook.c:75-78). -/
def hookValid (id : Nat) : Bool := decide (HOOK_NULL < id) && decide (id < NUM_HOOKS)

/-- `asdf_hook_get` (asdf_hook.c:118-121). -/
def hookGet (hs : List HookFn) (id : Nat) : Res HookFn :=
  if hookValid id then rd hs id else .ok .null

/-- `asdf_hook_assign` (asdf_hook.c:140-145). -/
def hookAssign (hs : List HookFn) (id : Nat) (f : HookFn) : Res (List HookFn) :=
  if hookValid id then wr hs id f else .ok hs

/-- `asdf_hook_init` (asdf_hook.c:163-173; defaults: asdf_arch_*.h
`ASDF_ARCH_DEFAULT_ROW_SCANNER`, `ASDF_ARCH_DEFAULT_OUTPUT`, asdf_config.h:87). -/
def hookInit (_ : List HookFn) : List HookFn :=
  (((List.replicate NUM_HOOKS HookFn.null).set HOOK_ROW_SCANNER .archReadRow).set
    HOOK_OUTPUT .archSendCode).set HOOK_KEY_SCANNER .keyscan

end Asdf
