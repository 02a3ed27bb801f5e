import Verif.Lemmas.Kb

/-! # Lemmas for C64: a key that is not accepted has no effect -/

namespace Asdf

open Spec

/-- The same keyboard with other debouncers. -/
def withDeb (d : Nat → Nat → Deb) (k : Kb) : Kb := { k with deb := d }

variable (d : Nat → Nat → Deb) (cfg : Config) (L : Layout)

theorem withDeb_setup1 (k : Kb) (c : SetupCmd) : (withDeb d k).setup1 c = withDeb d (k.setup1 c) := by
  cases c <;> rfl

theorem withDeb_setup (cmds : List SetupCmd) (k : Kb) :
    cmds.foldl Kb.setup1 (withDeb d k) = withDeb d (cmds.foldl Kb.setup1 k) := by
  induction cmds generalizing k with
  | nil => rfl
  | cons c cmds ih => rw [List.foldl_cons, List.foldl_cons, withDeb_setup1, ih]

theorem withDeb_select (k : Kb) (i : UInt8) :
    (withDeb d k).select cfg i = withDeb d (k.select cfg i) := by
  by_cases h : i ≠ k.map ∧ cfg.valid i = true
  · unfold Kb.select
    rw [if_pos h, if_pos (show i ≠ (withDeb d k).map ∧ _ from h)]
    exact withDeb_setup d (cfg.setup i) (Kb.emit { k with map := i, outs := Outputs.initial } [.archInit])
  · unfold Kb.select
    rw [if_neg h, if_neg (show ¬ (i ≠ (withDeb d k).map ∧ _) from h)]

theorem withDeb_function (k : Kb) (n : Nat) :
    (withDeb d k).function cfg n = withDeb d (k.function cfg n) := by
  show (match (hooksOf (cfg.setup k.map))[4 + n]? with
    | some (.print text) => (withDeb d k).say text
    | _ => withDeb d k) = _
  unfold Kb.function
  cases (hooksOf (cfg.setup k.map))[4 + n]? with
  | none => rfl
  | some f => cases f <;> rfl

theorem withDeb_press (k : Kb) (code : Code) :
    (withDeb d k).press cfg code = withDeb d (k.press cfg code) := by
  unfold Kb.press
  split
  all_goals first
    | exact withDeb_select d cfg k _
    | exact withDeb_function d cfg k _
    | rfl
    | skip
  split <;> rfl

theorem withDeb_release (k : Kb) (code : Code) :
    (withDeb d k).release cfg code = withDeb d (k.release cfg code) := by
  unfold Kb.release
  split
  all_goals first
    | exact withDeb_select d cfg k _
    | rfl
    | skip
  split <;> rfl

theorem withDeb_output (k : Kb) : (withDeb d k).output = withDeb d k.output := by
  obtain ⟨map, deb, held, locked, caps, ctrl, last, rpt, keys, msgs, outs, pause, trace⟩ := k
  cases msgs with
  | cons m ms => rfl
  | nil => cases keys <;> rfl

theorem withDeb_code (k : Kb) (r c : Nat) : (withDeb d k).code cfg L r c = k.code cfg L r c := rfl

/-- The next sample of a key is not an accepted press. -/
def AtRest (x : Deb) (p : Bool) : Prop := x.on = false ∧ (p = true → 1 < x.left)

/-- A key that is not accepted changes nothing but its debouncer. -/
theorem key_idle {k : Kb} {p : Bool} {r c : Nat} (h : AtRest (k.deb r c) p) :
    k.key cfg L p r c = withDeb (stepDeb k p r c).deb k := by
  obtain ⟨h1, h2⟩ := h
  unfold Kb.key
  rw [h1]
  cases p with
  | false => rfl
  | true =>
    rw [if_pos (by decide), if_neg (Nat.not_le.mpr (h2 rfl))]
    rfl

/-- Other keys' debouncers do not matter. -/
theorem withDeb_key {k : Kb} {p : Bool} {r c : Nat} (h : d r c = k.deb r c) :
    (withDeb d k).key cfg L p r c =
      withDeb (stepDeb (withDeb d k) p r c).deb (k.key cfg L p r c) := by
  have e : ∀ k' : Kb, k' = stepDeb (withDeb d k) p r c →
      k' = withDeb (stepDeb (withDeb d k) p r c).deb (stepDeb k p r c) := by
    intro k' h; rw [h]; rfl
  unfold Kb.key
  show (if p ≠ (d r c).on then
      if (d r c).left ≤ 1 then
        if p = true then (stepDeb (withDeb d k) p r c).press cfg (k.code cfg L r c)
        else (stepDeb (withDeb d k) p r c).release cfg (k.code cfg L r c)
      else stepDeb (withDeb d k) p r c
    else if p = true ∧ k.code cfg L r c = k.last then
      if k.rpt.left = 1 then Kb.type { stepDeb (withDeb d k) p r c with rpt := k.rpt.tick } k.last
      else { stepDeb (withDeb d k) p r c with rpt := k.rpt.tick }
    else stepDeb (withDeb d k) p r c) = _
  rw [h]
  have es := e _ rfl
  by_cases h1 : p ≠ (k.deb r c).on
  · rw [if_pos h1, if_pos h1]
    by_cases h2 : (k.deb r c).left ≤ 1
    · rw [if_pos h2, if_pos h2]
      by_cases h3 : p = true
      · rw [if_pos h3, if_pos h3]
        exact withDeb_press (stepDeb (withDeb d k) p r c).deb cfg (stepDeb k p r c) _
      · rw [if_neg h3, if_neg h3]
        exact withDeb_release (stepDeb (withDeb d k) p r c).deb cfg (stepDeb k p r c) _
    · rw [if_neg h2, if_neg h2]
      rfl
  · rw [if_neg h1, if_neg h1]
    by_cases h2 : p = true ∧ k.code cfg L r c = k.last
    · rw [if_pos h2, if_pos h2]
      by_cases h3 : k.rpt.left = 1
      · rw [if_pos h3, if_pos h3]; rfl
      · rw [if_neg h3, if_neg h3]; rfl
    · rw [if_neg h2, if_neg h2]
      rfl

/-- The debouncers after sampling some keys. -/
theorem fold_deb (inp : Input) (xs : List (Nat × Nat)) (hn : xs.Nodup) (k : Kb) (r c : Nat) :
    (xs.foldl (fun k x => k.key cfg L (sample inp x.1 x.2) x.1 x.2) k).deb r c =
      if (r, c) ∈ xs then (k.deb r c).step (sample inp r c) else k.deb r c := by
  induction xs generalizing k with
  | nil => rfl
  | cons x xs ih =>
    obtain ⟨h1, h2⟩ := List.nodup_cons.mp hn
    rw [List.foldl_cons, ih h2, key_deb]
    by_cases hx : (r, c) = x
    · subst hx
      rw [if_neg h1, if_pos (List.mem_cons_self (a := (r, c)) (l := xs)), if_pos (And.intro rfl rfl)]
    · have hx' : ¬ (r = x.1 ∧ c = x.2) := fun h => hx (Prod.ext h.1 h.2)
      rw [if_neg hx']
      by_cases hm : (r, c) ∈ xs
      · rw [if_pos hm, if_pos (List.mem_cons_of_mem _ hm)]
      · rw [if_neg hm, if_neg (fun h => (List.mem_cons.mp h).elim hx hm)]

theorem keysOf_nodup : (keysOf L).Nodup := by
  rw [keysOf_allKeys]; exact keyOrder_nodup _ _ _

theorem mem_keysOf {r c : Nat} : (r, c) ∈ keysOf L ↔ r < L.rows ∧ c < L.cols := by
  rw [keysOf_allKeys]; unfold allKeys; rw [mem_keyOrder]; omega

theorem pass_deb (k : Kb) (inp : Input) {r c : Nat} (hr : r < L.rows) (hc : c < L.cols) :
    (k.pass cfg L inp).deb r c = (k.deb r c).step (sample inp r c) := by
  unfold Kb.pass
  rw [fold_deb cfg L inp _ (keysOf_nodup L), if_pos ((mem_keysOf L).mpr ⟨hr, hc⟩), output_deb]

/-- Each key's debouncer depends on its own samples only. -/
theorem after_deb (inps : List Input) {r c : Nat} (hr : r < L.rows) (hc : c < L.cols) :
    (Kb.after cfg L inps).deb r c = (samplesOf inps r c).foldl Deb.step Deb.init := by
  refine snoc_induction (P := fun l => (Kb.after cfg L l).deb r c =
    (samplesOf l r c).foldl Deb.step Deb.init) ?_ ?_ inps
  · show (Kb.start cfg).deb r c = _
    unfold Kb.start
    rw [install_deb]
    rfl
  · intro a x ih
    rw [after_snoc, pass_deb cfg L _ _ hr hc, ih]
    unfold samplesOf
    rw [List.map_append, List.foldl_append]
    rfl

/-- A key that was closed in fewer than ten scans is not accepted. -/
theorem deb_few (l : List Bool) (h : l.count true < 10) :
    l.foldl Deb.step Deb.init = ⟨false, 10 - l.count true⟩ := by
  revert h
  refine snoc_induction (P := fun l => l.count true < 10 →
    l.foldl Deb.step Deb.init = ⟨false, 10 - l.count true⟩) (fun _ => rfl) ?_ l
  intro a p ih h
  rw [List.count_append] at h ⊢
  rw [List.foldl_append, ih (by omega), List.foldl_cons, List.foldl_nil]
  cases p with
  | false => simp [Deb.step]
  | true =>
    have e : List.count true [true] = 1 := rfl
    rw [e] at h ⊢
    unfold Deb.step
    rw [if_neg (fun h => by cases h), if_neg (by dsimp only; omega)]
    show (⟨false, _⟩ : Deb) = ⟨false, _⟩
    congr 1

/-- The two keyboards differ at most in the debouncers of the keys `S`. -/
def Alike (S : Nat → Nat → Bool) (k1 k2 : Kb) : Prop :=
  k2 = withDeb k2.deb k1 ∧ ∀ r c, S r c = false → k2.deb r c = k1.deb r c

theorem Alike.refl (S : Nat → Nat → Bool) (k : Kb) : Alike S k k := ⟨rfl, fun _ _ _ => rfl⟩

theorem Alike.key {S : Nat → Nat → Bool} {k1 k2 : Kb} (h : Alike S k1 k2) {p1 p2 : Bool} {r c : Nat}
    (ho : S r c = false → p1 = p2)
    (hs : S r c = true → AtRest (k1.deb r c) p1 ∧ AtRest (k2.deb r c) p2) :
    Alike S (k1.key cfg L p1 r c) (k2.key cfg L p2 r c) := by
  obtain ⟨h1, h2⟩ := h
  have hd : ∀ r' c', S r' c' = false →
      (k2.key cfg L p2 r c).deb r' c' = (k1.key cfg L p1 r c).deb r' c' := by
    intro r' c' hf
    rw [key_deb, key_deb]
    by_cases he : r' = r ∧ c' = c
    · rw [if_pos he, if_pos he]
      rw [he.1, he.2] at hf
      rw [h2 r c hf, ho hf]
    · rw [if_neg he, if_neg he]
      exact h2 r' c' hf
  refine ⟨?_, hd⟩
  cases hS : S r c with
  | true =>
    obtain ⟨i1, i2⟩ := hs hS
    rw [key_idle cfg L i1, key_idle cfg L i2]
    generalize (stepDeb k2 p2 r c).deb = d2
    rw [h1]
    rfl
  | false =>
    have hp := ho hS
    subst hp
    have := withDeb_key k2.deb cfg L (k := k1) (p := p1) (h2 r c hS)
    rw [← h1] at this
    rw [this]
    rfl

theorem Alike.output {S : Nat → Nat → Bool} {k1 k2 : Kb} (h : Alike S k1 k2) :
    Alike S k1.output k2.output := by
  obtain ⟨h1, h2⟩ := h
  refine ⟨?_, fun r c hf => by rw [output_deb, output_deb]; exact h2 r c hf⟩
  rw [output_deb]
  have := withDeb_output k2.deb k1
  rw [← h1] at this
  exact this

theorem Alike.keys {S : Nat → Nat → Bool} {inp1 inp2 : Input} (xs : List (Nat × Nat)) (hn : xs.Nodup)
    {k1 k2 : Kb} (h : Alike S k1 k2)
    (ho : ∀ x ∈ xs, S x.1 x.2 = false → sample inp1 x.1 x.2 = sample inp2 x.1 x.2)
    (hs : ∀ x ∈ xs, S x.1 x.2 = true →
      AtRest (k1.deb x.1 x.2) (sample inp1 x.1 x.2) ∧ AtRest (k2.deb x.1 x.2) (sample inp2 x.1 x.2)) :
    Alike S (xs.foldl (fun k x => k.key cfg L (sample inp1 x.1 x.2) x.1 x.2) k1)
      (xs.foldl (fun k x => k.key cfg L (sample inp2 x.1 x.2) x.1 x.2) k2) := by
  induction xs generalizing k1 k2 with
  | nil => exact h
  | cons x xs ih =>
    obtain ⟨n1, n2⟩ := List.nodup_cons.mp hn
    rw [List.foldl_cons, List.foldl_cons]
    refine ih n2 (h.key cfg L (ho x List.mem_cons_self) (hs x List.mem_cons_self))
      (fun y hy => ho y (List.mem_cons_of_mem _ hy)) ?_
    intro y hy hS
    have hne : ¬ (y.1 = x.1 ∧ y.2 = x.2) := fun e => n1 (by rw [← Prod.ext e.1 e.2]; exact hy)
    rw [key_deb, key_deb, if_neg hne, if_neg hne]
    exact hs y (List.mem_cons_of_mem _ hy) hS

/-- Noise on keys that are never accepted has no effect on anything else. -/
theorem Alike.after {S : Nat → Nat → Bool} (pairs : List (Input × Input))
    (ho : ∀ x ∈ pairs, ∀ r c, r < L.rows → c < L.cols → S r c = false →
      sample x.1 r c = sample x.2 r c)
    (hs : ∀ r c, r < L.rows → c < L.cols → S r c = true →
      (samplesOf (pairs.map (·.1)) r c).count true < 10 ∧
      (samplesOf (pairs.map (·.2)) r c).count true < 10) :
    Alike S (Kb.after cfg L (pairs.map (·.1))) (Kb.after cfg L (pairs.map (·.2))) := by
  revert ho hs
  refine snoc_induction (P := fun pairs =>
    (∀ x ∈ pairs, ∀ r c, r < L.rows → c < L.cols → S r c = false →
      sample x.1 r c = sample x.2 r c) →
    (∀ r c, r < L.rows → c < L.cols → S r c = true →
      (samplesOf (pairs.map (·.1)) r c).count true < 10 ∧
      (samplesOf (pairs.map (·.2)) r c).count true < 10) →
    Alike S (Kb.after cfg L (pairs.map (·.1))) (Kb.after cfg L (pairs.map (·.2)))) ?_ ?_ pairs
  · intro _ _
    exact Alike.refl _ _
  · intro a x ih ho hs
    have hcount : ∀ (f : Input × Input → Input) r c,
        (samplesOf ((a ++ [x]).map f) r c).count true =
          (samplesOf (a.map f) r c).count true + [sample (f x) r c].count true := by
      intro f r c
      unfold samplesOf
      rw [List.map_append, List.map_append, List.count_append]
      rfl
    have hid : ∀ (f : Input × Input → Input) r c, r < L.rows → c < L.cols →
        (samplesOf ((a ++ [x]).map f) r c).count true < 10 →
        AtRest ((Kb.after cfg L (a.map f)).output.deb r c) (sample (f x) r c) := by
      intro f r c hr hc h
      rw [hcount] at h
      rw [output_deb, after_deb cfg L _ hr hc, deb_few _ (by omega)]
      refine ⟨rfl, fun hp => ?_⟩
      rw [hp] at h
      have : [true].count true = 1 := rfl
      rw [this] at h
      show 1 < 10 - _
      omega
    rw [List.map_append, List.map_append, List.map_singleton, List.map_singleton, after_snoc, after_snoc]
    refine Alike.keys cfg L _ (keysOf_nodup L) (Alike.output (ih
      (fun y hy => ho y (List.mem_append_left _ hy)) (fun r c hr hc hS => ?_))) ?_ ?_
    · obtain ⟨h1, h2⟩ := hs r c hr hc hS
      rw [hcount (·.1)] at h1
      rw [hcount (·.2)] at h2
      exact ⟨by omega, by omega⟩
    · intro y hy hS
      obtain ⟨hr, hc⟩ := (mem_keysOf L).mp hy
      exact ho x (List.mem_append_right _ (List.mem_singleton.mpr rfl)) _ _ hr hc hS
    · intro y hy hS
      obtain ⟨hr, hc⟩ := (mem_keysOf L).mp hy
      obtain ⟨h1, h2⟩ := hs _ _ hr hc hS
      exact ⟨hid (·.1) _ _ hr hc h1, hid (·.2) _ _ hr hc h2⟩

theorem keys_idle {inp : Input} (xs : List (Nat × Nat)) (hn : xs.Nodup) {k : Kb}
    (hs : ∀ x ∈ xs, AtRest (k.deb x.1 x.2) (sample inp x.1 x.2)) :
    ∃ d, xs.foldl (fun k x => k.key cfg L (sample inp x.1 x.2) x.1 x.2) k = withDeb d k := by
  induction xs generalizing k with
  | nil => exact ⟨k.deb, rfl⟩
  | cons x xs ih =>
    obtain ⟨n1, n2⟩ := List.nodup_cons.mp hn
    rw [List.foldl_cons]
    obtain ⟨d, hd⟩ := ih n2 (k := k.key cfg L (sample inp x.1 x.2) x.1 x.2) (by
      intro y hy
      have hne : ¬ (y.1 = x.1 ∧ y.2 = x.2) := fun e => n1 (by rw [← Prod.ext e.1 e.2]; exact hy)
      rw [key_deb, if_neg hne]
      exact hs y (List.mem_cons_of_mem _ hy))
    refine ⟨d, ?_⟩
    rw [hd, key_idle cfg L (hs x List.mem_cons_self)]
    rfl

/-- Without accepted keys nothing happens after power-up. -/
theorem after_idle (inps : List Input)
    (hs : ∀ r c, r < L.rows → c < L.cols → (samplesOf inps r c).count true < 10) :
    ∃ d, Kb.after cfg L inps = withDeb d (Kb.start cfg) := by
  revert hs
  refine snoc_induction (P := fun inps =>
    (∀ r c, r < L.rows → c < L.cols → (samplesOf inps r c).count true < 10) →
    ∃ d, Kb.after cfg L inps = withDeb d (Kb.start cfg)) ?_ ?_ inps
  · intro _
    exact ⟨(Kb.start cfg).deb, rfl⟩
  · intro a x ih hs
    have hcount : ∀ r c, (samplesOf (a ++ [x]) r c).count true =
        (samplesOf a r c).count true + [sample x r c].count true := by
      intro r c
      unfold samplesOf
      rw [List.map_append, List.count_append]
      rfl
    obtain ⟨d, hd⟩ := ih (fun r c hr hc => by
      have := hs r c hr hc
      rw [hcount] at this
      omega)
    obtain ⟨_, _, e1, e2, _⟩ := start_flow cfg
    have ho : (Kb.after cfg L a).output = Kb.after cfg L a := by
      rw [hd, withDeb_output]
      have : (Kb.start cfg).output = Kb.start cfg := by unfold Kb.output; rw [e2, e1]
      rw [this]
    obtain ⟨d', hd'⟩ := keys_idle cfg L (inp := x) _ (keysOf_nodup L) (k := Kb.after cfg L a) (by
      rintro ⟨r, c⟩ hy
      obtain ⟨hr, hc⟩ := (mem_keysOf L).mp hy
      have h := hs r c hr hc
      rw [hcount] at h
      rw [after_deb cfg L _ hr hc, deb_few _ (by omega)]
      refine ⟨rfl, fun hp => ?_⟩
      dsimp only at hp
      rw [hp] at h
      have : [true].count true = 1 := rfl
      rw [this] at h
      show 1 < 10 - _
      omega)
    refine ⟨d', ?_⟩
    rw [after_snoc]
    unfold Kb.pass
    rw [ho, hd', hd]
    rfl

end Asdf
