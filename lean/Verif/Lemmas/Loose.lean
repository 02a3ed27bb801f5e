import Verif.Spec.Loose
import Verif.Lemmas.Strokes

/-! # Typing text without care for the modifiers: the abstract keyboard -/

namespace Asdf

open Spec

namespace Loose

open Typist

variable {cfg : Config} {L : Layout} {i : UInt8} {d : Nat}

/-- The code that may repeat is the character of the hand; if its key is down, it has been down for a
time that together with what is left of the delay makes up the delay. -/
def Owner (cfg : Config) (L : Layout) (i : UInt8) (d : Nat) (age : Nat → Nat → Nat → Prop) (up : Nat → Nat → Prop)
    (last : Option ((Nat × Nat) × Code)) (k : Kb) : Prop :=
  match last with
  | none => k.last = 0xA0
  | some (x, code) => k.last = code ∧ code.toNat < 0xA0 ∧ x.1 < L.rows ∧ x.2 < L.cols ∧
      ¬ Functional cfg L i x.1 x.2 ∧ (up x.1 x.2 ∨ ∃ n, age x.1 x.2 n ∧ d ≤ k.rpt.left + n ∧ (d = 0 → k.rpt.left = 0))

theorem Owner.mono {age age' : Nat → Nat → Nat → Prop} {up up' : Nat → Nat → Prop}
    {last : Option ((Nat × Nat) × Code)} {k k' : Kb} (h : Owner cfg L i d age up last k) (e1 : k'.last = k.last)
    (e2 : k'.rpt = k.rpt) (hu : ∀ x code, last = some (x, code) → up x.1 x.2 → up' x.1 x.2)
    (ha : ∀ x code, last = some (x, code) → ∀ n, age x.1 x.2 n → ∃ n', n ≤ n' ∧ age' x.1 x.2 n') :
    Owner cfg L i d age' up' last k' := by
  unfold Owner at h ⊢
  rw [e1, e2]
  cases last with
  | none => exact h
  | some y =>
    obtain ⟨h1, h2, h3, h4, hf, h5⟩ := h
    refine ⟨h1, h2, h3, h4, hf, ?_⟩
    rcases h5 with h5 | ⟨n, h5, h6, h7⟩
    · exact .inl (hu _ _ rfl h5)
    · obtain ⟨n', hn, h8⟩ := ha _ _ rfl n h5
      exact .inr ⟨n', h8, by omega, h7⟩

/-- One scan under way: `xs` are the keys still to be looked at. -/
structure Mid (cfg : Config) (L : Layout) (i : UInt8) (d : Nat) (p done : List Input) (inp : Input)
    (D : Nat → Nat → Deb) (xs : List (Nat × Nat)) (k : Kb) (h : Hand) : Prop where
  map : k.map = i
  delay : k.rpt.delay = d
  mods : k.mods = h.mods
  deb : ∀ x ∈ xs, k.deb x.1 x.2 = D x.1 x.2
  owner : Owner cfg L i d (fun r c n => if (r, c) ∈ xs then Aged p done r c n else Aged p (done ++ [inp]) r c n)
    (fun r c => (if (r, c) ∈ xs then downAfter (p ++ done) r c else downAfter (p ++ (done ++ [inp])) r c) = false)
    h.last k

theorem typeKeys_hand (b a : Down) (x : Nat × Nat) (xs : List (Nat × Nat)) (h : Hand) :
    typeKeys cfg L i b a (x :: xs) h.mods =
      ((if b x.1 x.2 = a x.1 x.2 then [] else if isModCode (h.mods.code cfg L i x.1 x.2) then []
        else if a x.1 x.2 then [h.mods.code cfg L i x.1 x.2] else []) ++
          (typeKeys cfg L i b a xs (h.key cfg L i (b x.1 x.2) (a x.1 x.2) x).mods).1,
        (typeKeys cfg L i b a xs (h.key cfg L i (b x.1 x.2) (a x.1 x.2) x).mods).2) := by
  show (if _ then _ else _) = _
  unfold Hand.key
  dsimp only
  by_cases hba : b x.1 x.2 = a x.1 x.2
  · rw [if_pos hba, if_pos hba, if_pos hba]
    rfl
  · rw [if_neg hba, if_neg hba, if_neg hba]
    cases isModCode (ModKeys.code cfg L i h.mods x.1 x.2)
    · cases a x.1 x.2 <;> rfl
    · rfl

section scan

variable {p done rest : List Input} {inp : Input} {D : Nat → Nat → Deb}

/-- The owner when the key `x` is done with and has not changed, or is not the owner. -/
theorem owner_next {x : Nat × Nat} {xs : List (Nat × Nat)} {k k' : Kb} {last : Option ((Nat × Nat) × Code)} (hx : x ∉ xs)
    (h : Owner cfg L i d (fun r c n => if (r, c) ∈ x :: xs then Aged p done r c n else Aged p (done ++ [inp]) r c n)
      (fun r c => (if (r, c) ∈ x :: xs then downAfter (p ++ done) r c else downAfter (p ++ (done ++ [inp])) r c) = false)
      last k) (e1 : k'.last = k.last) (e2 : k'.rpt = k.rpt)
    (he : downAfter (p ++ done) x.1 x.2 = downAfter (p ++ (done ++ [inp])) x.1 x.2 ∨ ∀ y ∈ last, y.1 ≠ x) :
    Owner cfg L i d (fun r c n => if (r, c) ∈ xs then Aged p done r c n else Aged p (done ++ [inp]) r c n)
      (fun r c => (if (r, c) ∈ xs then downAfter (p ++ done) r c else downAfter (p ++ (done ++ [inp])) r c) = false)
      last k' := by
  refine h.mono e1 e2 (fun y code hy hu => ?_) (fun y code hy n ha => ?_)
  · by_cases hyx : y = x
    · subst hyx
      rcases he with he | he
      · rw [if_pos List.mem_cons_self] at hu
        rw [if_neg hx, ← he]
        exact hu
      · exact absurd rfl (he _ hy)
    · have e : ((y.1, y.2) ∈ x :: xs) = ((y.1, y.2) ∈ xs) := by
        rw [List.mem_cons]
        simp only [hyx, false_or]
      simpa only [e] using hu
  · by_cases hyx : y = x
    · subst hyx
      rcases he with he | he
      · rw [if_pos List.mem_cons_self] at ha
        refine ⟨n + 1, by omega, ?_⟩
        rw [if_neg hx]
        exact ha.next (by rw [← he]; exact ha.down)
      · exact absurd rfl (he _ hy)
    · refine ⟨n, Nat.le_refl _, ?_⟩
      have e : ((y.1, y.2) ∈ x :: xs) = ((y.1, y.2) ∈ xs) := by
        rw [List.mem_cons]
        simp only [hyx, false_or]
      simpa only [e] using ha

/-- One key. -/
theorem Mid.key (hb : Brief cfg L i d p (done ++ [inp] ++ rest))
    {r c : Nat} (hr : r < L.rows) (hc : c < L.cols)
    (hD1 : (D r c).on = downAfter (p ++ done) r c)
    (hD2 : ((D r c).step (sample inp r c)).on = downAfter (p ++ (done ++ [inp])) r c)
    {xs : List (Nat × Nat)} (hx : (r, c) ∉ xs) {k : Kb} {h : Hand}
    (T : h.Tidy cfg L i (downAfter (p ++ done) r c) (downAfter (p ++ (done ++ [inp])) r c) (r, c))
    (M : Mid cfg L i d p done inp D ((r, c) :: xs) k h) :
    let b := downAfter (p ++ done) r c
    let a := downAfter (p ++ (done ++ [inp])) r c
    let x := h.mods.code cfg L i r c
    Kb.saidBy cfg L (sample inp r c) k r c = [] ∧
    (b = a ∨ isModCode x = true → Kb.typedBy cfg L (sample inp r c) k r c = []) ∧
    (b ≠ a → isModCode x = false →
      Kb.typedBy cfg L (sample inp r c) k r c = (if a then [x] else [])) ∧
    Mid cfg L i d p done inp D xs (k.key cfg L (sample inp r c) r c) (h.key cfg L i b a (r, c)) := by
  intro b a x
  have hdeb : k.deb r c = D r c := M.deb (r, c) List.mem_cons_self
  have hcode : k.code cfg L r c = x := by rw [code_eq M.map, M.mods]
  have hother : ∀ y ∈ xs, (k.key cfg L (sample inp r c) r c).deb y.1 y.2 = D y.1 y.2 := by
    intro y hy
    rw [key_deb, if_neg]
    · exact M.deb y (List.mem_cons_of_mem _ hy)
    rintro ⟨e1, e2⟩
    exact hx (by rw [← e1, ← e2]; exact hy)
  by_cases hp : sample inp r c ≠ (D r c).on
  · by_cases hl : (D r c).left ≤ 1
    · -- the change is accepted
      have ha : a = sample inp r c := by
        show downAfter _ _ _ = _
        rw [← hD2]
        unfold Deb.step
        rw [if_neg hp, if_pos hl]
      have hba : b ≠ a := by
        rw [ha]
        show downAfter _ _ _ ≠ _
        rw [← hD1]
        exact fun e => hp e.symm
      have hkey : k.key cfg L (sample inp r c) r c = if sample inp r c then
          (stepDeb k (sample inp r c) r c).press cfg x else (stepDeb k (sample inp r c) r c).release cfg x := by
        unfold Kb.key
        rw [hdeb, if_pos hp, if_pos hl, hcode, ← hdeb]
        rfl
      have hxmod : isModCode x = true → 0xA0 < x.toNat ∧ x.toNat < 0xA7 := by
        intro e
        simp only [isModCode, Bool.and_eq_true, decide_eq_true_eq] at e
        omega
      have hle0 : IsModKey cfg L i r c ∨ x.toNat ≤ 0xA0 := by
        cases hbv : b <;> cases hav : a
        · exact absurd (hbv.trans hav.symm) hba
        · rcases T.press hbv hav with e | e
          · exact .inl e
          · exact .inr (Nat.le_of_lt e.1)
        · exact T.release hbv hav
        · exact absurd (hbv.trans hav.symm) hba
      have hle : isModCode x = true ∨ x.toNat ≤ 0xA0 := by
        rcases hle0 with ⟨y, e1, e2⟩ | e
        · exact .inl ((show x = y from e2 _) ▸ e1)
        · exact .inr e
      have hHand : h.key cfg L i b a (r, c) = if isModCode x then { h with mods := h.mods.event x a }
          else if a then { h with last := some ((r, c), x) } else { h with last := h.last.filter fun y => y.2 != x } := by
        unfold Hand.key
        exact if_neg hba
      refine ⟨?_, ?_, ?_, ?_⟩
      · unfold Kb.saidBy
        rw [hcode]
        split
        · have : x.toNat < 0xA7 := by
            rcases hle with e | e
            · exact (hxmod e).2
            · omega
          rw [if_neg (by omega), if_neg (by omega)]
        · rfl
      · rintro (e | e)
        · exact absurd e hba
        · have := (hxmod e).1
          unfold Kb.typedBy
          rw [hdeb, hcode, if_pos hp, if_neg (by omega)]
      · intro _ hx0
        have hle : x.toNat ≤ 0xA0 := by
          rcases hle with e | e
          · rw [e] at hx0; cases hx0
          · exact e
        unfold Kb.typedBy
        rw [hdeb, hcode, if_pos hp, ha]
        cases sample inp r c
        · simp
        · rw [if_pos ⟨rfl, hl, hle⟩]
          rfl
      · rw [hHand]
        cases hxm : isModCode x
        · -- a key with a character
          have hle : x.toNat ≤ 0xA0 := by
            rcases hle with e | e
            · rw [e] at hxm; cases hxm
            · exact e
          simp only [Bool.false_eq_true, if_false]
          cases hs : sample inp r c
          · -- released
            have haf : a = false := by rw [ha, hs]
            rw [haf]
            simp only [Bool.false_eq_true, if_false]
            rw [hs] at hkey hother
            have hkey : k.key cfg L false r c = { stepDeb k false r c with
                last := if k.last = x then 0xA0 else k.last } :=
              hkey.trans (release_code cfg _ x hle)
            rw [hkey] at hother ⊢
            refine ⟨M.map, M.delay, M.mods, hother, ?_⟩
            have ho := M.owner
            show Owner cfg L i d _ _ (h.last.filter fun y => y.2 != x) _
            cases hla : h.last with
            | none =>
              rw [hla] at ho
              have ho : k.last = 0xA0 := ho
              show (if k.last = x then 0xA0 else k.last) = _
              rw [ho]
              split <;> rfl
            | some y =>
              rw [hla] at ho
              have hk : k.last = y.2 := ho.1
              rw [Option.filter_some]
              by_cases hyx : y.2 = x
              · rw [hyx]
                simp only [bne_self_eq_false, Bool.false_eq_true, if_false]
                show (if k.last = x then 0xA0 else k.last) = _
                rw [hk, if_pos hyx]
              · rw [if_pos (by simpa using hyx)]
                by_cases hy1 : y.1 = (r, c)
                · obtain ⟨h1, h2, h3, h4, hf, _⟩ := ho
                  refine ⟨?_, h2, h3, h4, hf, .inl ?_⟩
                  · show (if k.last = x then 0xA0 else k.last) = _
                    rw [hk, if_neg hyx]
                  · show (if (y.1.1, y.1.2) ∈ xs then _ else _) = false
                    rw [hy1, if_neg hx]
                    exact haf
                · refine owner_next (x := (r, c)) (k := k) hx ho ?_ rfl (.inr (fun z hz => ?_))
                  · show (if k.last = x then 0xA0 else k.last) = _
                    rw [hk, if_neg hyx]
                  · cases hz
                    exact hy1
          · -- pressed
            have hat : a = true := by rw [ha, hs]
            have hbf : b = false := by
              cases hbv : b
              · rfl
              · exact absurd (hbv.trans hat.symm) hba
            obtain ⟨hlt, hnew⟩ : x.toNat < 0xA0 ∧ ∀ y ∈ h.last, y.2 ≠ x := by
              rcases T.press hbf hat with e | e
              · obtain ⟨y, e1, e2⟩ := e
                rw [show x = y from e2 _, e1] at hxm; cases hxm
              · exact e
            rw [hat]
            simp only [if_true]
            rw [hs] at hkey hother
            have hkey : k.key cfg L true r c = (stepDeb k true r c).type x :=
              hkey.trans (press_code cfg _ x hle)
            rw [hkey] at hother ⊢
            have hlx : k.last ≠ x := by
              have ho := M.owner
              cases hla : h.last with
              | none =>
                rw [hla] at ho
                have ho : k.last = 0xA0 := ho
                rw [ho]
                intro e
                rw [← e] at hlt
                exact absurd hlt (by decide)
              | some y =>
                rw [hla] at ho
                have hk : k.last = y.2 := ho.1
                rw [hk]
                exact hnew y hla
            have hrpt : ((stepDeb k true r c).type x).rpt = k.rpt.restart := by
              show (if k.last = x then k.rpt else k.rpt.restart) = _
              rw [if_neg hlx]
            refine ⟨M.map, by rw [hrpt]; exact M.delay, M.mods, hother, ⟨rfl, hlt, hr, hc, fun e => ?_, .inr ⟨0, ?_, ?_, ?_⟩⟩⟩
            · have : 0xA0 < x.toNat := e h.mods
              omega
            · show if (r, c) ∈ xs then _ else _
              rw [if_neg hx]
              exact Aged.fresh hat
            · rw [hrpt]
              show d ≤ k.rpt.delay + 0
              rw [M.delay]; exact Nat.le_refl _
            · intro hd0
              rw [hrpt]
              show k.rpt.delay = 0
              rw [M.delay, hd0]
        · -- a modifier key
          rw [if_pos rfl]
          have hmid : ∀ k' : Kb, k'.map = k.map → k'.rpt = k.rpt → k'.last = k.last →
              k'.mods = k.mods.event x a → k' = k.key cfg L (sample inp r c) r c →
              Mid cfg L i d p done inp D xs (k.key cfg L (sample inp r c) r c)
                { h with mods := h.mods.event x a } := by
            intro k' e1 e2 e3 e4 e5
            rw [← e5] at hother ⊢
            refine ⟨e1.trans M.map, by rw [e2]; exact M.delay, by rw [e4, M.mods], hother,
              owner_next (x := (r, c)) (k := k) hx M.owner e3 e2 (.inr (fun y hy e => ?_))⟩
            have ho := M.owner
            rw [show h.last = some y from hy] at ho
            obtain ⟨_, _, _, _, hf, _⟩ := ho
            rw [e] at hf
            rcases hle0 with e | e
            · exact hf (modKey_functional e)
            · have := (hxmod hxm).1
              omega
          cases hs : sample inp r c
          · have e := release_mod (cfg := cfg) (stepDeb k (sample inp r c) r c) hxm
            rw [hs] at e
            rw [ha, hs] at hmid
            rw [ha, hs]
            refine hmid _ e.1 e.2.1 e.2.2.1 e.2.2.2 ?_
            rw [hs] at hkey
            exact hkey.symm
          · have e := press_mod (cfg := cfg) (stepDeb k (sample inp r c) r c) hxm
            rw [hs] at e
            rw [ha, hs] at hmid
            rw [ha, hs]
            refine hmid _ e.1 e.2.1 e.2.2.1 e.2.2.2 ?_
            rw [hs] at hkey
            exact hkey.symm
    · -- the change is not accepted yet
      have hba : b = a := by
        show downAfter _ _ _ = downAfter _ _ _
        rw [← hD1, ← hD2]
        unfold Deb.step
        rw [if_neg hp, if_neg hl]
      refine ⟨?_, fun _ => ?_, fun e => absurd hba e, ?_⟩
      · unfold Kb.saidBy
        rw [hdeb, if_neg (fun e => hl e.2.2)]
      · unfold Kb.typedBy
        rw [hdeb, if_pos hp, if_neg (fun e => hl e.2.1)]
      · have hkey : k.key cfg L (sample inp r c) r c = stepDeb k (sample inp r c) r c := by
          unfold Kb.key
          rw [hdeb, if_pos hp, if_neg hl, ← hdeb]
          rfl
        rw [show h.key cfg L i b a (r, c) = h from if_pos hba]
        rw [hkey] at hother ⊢
        exact ⟨M.map, M.delay, M.mods, hother, owner_next (x := (r, c)) (k := k) hx M.owner rfl rfl (.inl hba)⟩
  · have hp : sample inp r c = (D r c).on := Decidable.of_not_not hp
    have hba : b = a := by
      show downAfter _ _ _ = downAfter _ _ _
      rw [← hD1, ← hD2]
      unfold Deb.step
      rw [if_pos hp]
    rw [show h.key cfg L i b a (r, c) = h from if_pos hba]
    have hsaid : Kb.saidBy cfg L (sample inp r c) k r c = [] := by
      unfold Kb.saidBy
      rw [hdeb, if_neg]
      rintro ⟨e1, e2, _⟩
      rw [hp, e2] at e1
      cases e1
    by_cases ht : sample inp r c = true ∧ x = k.last
    · -- the held key that may repeat
      obtain ⟨hs, hxl⟩ := ht
      have hbt : b = true := by
        show downAfter _ _ _ = true
        rw [← hD1, ← hp, hs]
      obtain ⟨hold1, hold2⟩ := T.hold hbt (hba.symm.trans hbt)
      have ho := M.owner
      cases hla : h.last with
      | none =>
        rw [hla] at ho
        exact absurd (hxl.trans ho) (hold2 hla)
      | some y =>
        obtain ⟨q, code⟩ := y
        rw [hla] at ho
        obtain ⟨h1, h2, h3, h4, hf, h5⟩ := ho
        have hq : q = (r, c) := hold1 _ hla (h1.symm.trans hxl.symm)
        subst hq
        rcases h5 with h5 | ⟨n, h5, h6, h7⟩
        · rw [if_pos List.mem_cons_self, show downAfter _ _ _ = true from hbt] at h5
          cases h5
        rw [if_pos List.mem_cons_self] at h5
        have hage : Aged p (done ++ [inp]) r c (n + 1) := h5.next (by rw [← hbt, hba])
        have hleft : k.rpt.left ≠ 1 := by
          intro e
          by_cases hd0 : d = 0
          · have := h7 hd0
            omega
          · have := hage.lt hb hr hc hf hd0
            omega
        have hkey : k.key cfg L (sample inp r c) r c =
            { stepDeb k (sample inp r c) r c with rpt := k.rpt.tick } := by
          unfold Kb.key
          rw [hdeb, if_neg (not_not_intro hp), hcode, if_pos ⟨hs, hxl⟩, if_neg hleft, ← hdeb]
          rfl
        have htick : k.rpt.tick.left = if k.rpt.left = 0 then 0 else k.rpt.left - 1 := by
          show (if k.rpt.left = 0 then 0 else if k.rpt.left = 1 then 66 else k.rpt.left - 1) = _
          rw [if_neg hleft]
        refine ⟨hsaid, fun _ => ?_, fun e => absurd hba e, ?_⟩
        · unfold Kb.typedBy
          rw [hdeb, if_neg (not_not_intro hp), hcode, if_neg (fun e => hleft e.2.2)]
        rw [hkey] at hother ⊢
        refine ⟨M.map, M.delay, M.mods, hother, ?_⟩
        rw [hla]
        refine ⟨h1, h2, hr, hc, hf, .inr ⟨n + 1, ?_, ?_, ?_⟩⟩
        · show if (r, c) ∈ xs then _ else _
          rw [if_neg hx]
          exact hage
        · show d ≤ k.rpt.tick.left + (n + 1)
          rw [htick]
          split <;> omega
        · intro hd0
          show k.rpt.tick.left = 0
          rw [htick, if_pos (h7 hd0)]
    · refine ⟨hsaid, fun _ => ?_, fun e => absurd hba e, ?_⟩
      · unfold Kb.typedBy
        rw [hdeb, if_neg (not_not_intro hp), hcode, if_neg (fun e => ht ⟨e.1, e.2.1⟩)]
      · have hkey : k.key cfg L (sample inp r c) r c = stepDeb k (sample inp r c) r c := by
          unfold Kb.key
          rw [hdeb, if_neg (not_not_intro hp), hcode, if_neg ht, ← hdeb]
          rfl
        rw [hkey] at hother ⊢
        exact ⟨M.map, M.delay, M.mods, hother, owner_next (x := (r, c)) (k := k) hx M.owner rfl rfl (.inl hba)⟩

/-- All keys of a scan. -/
theorem Mid.keys (hb : Brief cfg L i d p (done ++ [inp] ++ rest))
    (hD : ∀ r c, r < L.rows → c < L.cols → (D r c).on = downAfter (p ++ done) r c ∧
      ((D r c).step (sample inp r c)).on = downAfter (p ++ (done ++ [inp])) r c)
    (xs : List (Nat × Nat)) (hxs : xs.Nodup) (hin : ∀ x ∈ xs, x.1 < L.rows ∧ x.2 < L.cols) {k : Kb} {h : Hand}
    (T : tidyKeys cfg L i (downAfter (p ++ done)) (downAfter (p ++ (done ++ [inp]))) xs h)
    (M : Mid cfg L i d p done inp D xs k h) :
    let s := typeKeys cfg L i (downAfter (p ++ done)) (downAfter (p ++ (done ++ [inp]))) xs h.mods
    let h' := handAfter cfg L i (downAfter (p ++ done)) (downAfter (p ++ (done ++ [inp]))) xs h
    Kb.logKeys cfg L Kb.typedBy inp xs k = s.1 ∧ Kb.logKeys cfg L Kb.saidBy inp xs k = [] ∧ h'.mods = s.2 ∧
      Mid cfg L i d p done inp D [] (xs.foldl (fun k x => k.key cfg L (sample inp x.1 x.2) x.1 x.2) k) h' := by
  induction xs generalizing k h with
  | nil => exact ⟨rfl, rfl, rfl, M⟩
  | cons x xs ih =>
    obtain ⟨r, c⟩ := x
    obtain ⟨hx, hnd⟩ := List.nodup_cons.mp hxs
    obtain ⟨hr, hc⟩ := hin (r, c) List.mem_cons_self
    obtain ⟨T1, T2⟩ := T
    obtain ⟨h0, h1, h2, h3⟩ := Mid.key hb hr hc (hD r c hr hc).1 (hD r c hr hc).2 hx T1 M
    obtain ⟨f1, f2, f3, f4⟩ := ih hnd (fun y hy => hin y (List.mem_cons_of_mem _ hy)) T2 h3
    dsimp only at f1 f2 f3 f4
    show Kb.typedBy cfg L (sample inp r c) k r c ++ _ = _ ∧ Kb.saidBy cfg L (sample inp r c) k r c ++ _ = _ ∧ _ ∧ _
    rw [h0]
    rw [typeKeys_hand]
    refine ⟨?_, f2, f3, f4⟩
    rw [f1]
    refine congrArg (· ++ _) ?_
    dsimp only
    by_cases hba : downAfter (p ++ done) r c = downAfter (p ++ (done ++ [inp])) r c
    · rw [if_pos hba, h1 (.inl hba)]
    · rw [if_neg hba]
      cases hm : isModCode (ModKeys.code cfg L i h.mods r c)
      · rw [h2 hba hm]
        rfl
      · rw [h1 (.inr hm)]
        rfl

end scan

/-- Between two scans. -/
structure Ready (cfg : Config) (L : Layout) (i : UInt8) (d : Nat) (p done : List Input) (h : Hand) : Prop where
  map : (Kb.after cfg L (p ++ done)).map = i
  delay : (Kb.after cfg L (p ++ done)).rpt.delay = d
  mods : (Kb.after cfg L (p ++ done)).mods = h.mods
  owner : Owner cfg L i d (Aged p done) (fun r c => downAfter (p ++ done) r c = false) h.last
    (Kb.after cfg L (p ++ done))

/-- One scan. -/
theorem Ready.scan {p done rest : List Input} {inp : Input} {h : Hand} (R : Ready cfg L i d p done h)
    (T : tidyKeys cfg L i (downAfter (p ++ done)) (downAfter (p ++ (done ++ [inp]))) (keysOf L) h)
    (hb : Brief cfg L i d p (done ++ [inp] ++ rest)) :
    let s := typeKeys cfg L i (downAfter (p ++ done)) (downAfter (p ++ (done ++ [inp]))) (keysOf L) h.mods
    let h' := handAfter cfg L i (downAfter (p ++ done)) (downAfter (p ++ (done ++ [inp]))) (keysOf L) h
    (Kb.after cfg L (p ++ done)).logPass cfg L Kb.typedBy inp = s.1 ∧
      (Kb.after cfg L (p ++ done)).logPass cfg L Kb.saidBy inp = [] ∧ h'.mods = s.2 ∧
      Ready cfg L i d p (done ++ [inp]) h' := by
  intro s h'
  have hD : ∀ r c, r < L.rows → c < L.cols →
      ((Kb.after cfg L (p ++ done)).deb r c).on = downAfter (p ++ done) r c ∧
      (((Kb.after cfg L (p ++ done)).deb r c).step (sample inp r c)).on =
        downAfter (p ++ (done ++ [inp])) r c := by
    intro r c hr hc
    rw [after_deb cfg L _ hr hc]
    refine ⟨rfl, ?_⟩
    show _ = debounced _
    unfold debounced samplesOf
    rw [← List.append_assoc, List.map_append (l₁ := p ++ done), List.foldl_append]
    rfl
  obtain ⟨o1, o2, o3, o4⟩ := output_fields (Kb.after cfg L (p ++ done))
  have hmem : ∀ x code, h.last = some (x, code) → (x.1, x.2) ∈ keysOf L := by
    intro x code e
    have ho := R.owner
    rw [e] at ho
    exact (mem_keysOf L).mpr ⟨ho.2.2.1, ho.2.2.2.1⟩
  have hmid : Mid cfg L i d p done inp (Kb.after cfg L (p ++ done)).deb (keysOf L)
      (Kb.after cfg L (p ++ done)).output h := by
    refine ⟨o1.trans R.map, by rw [o2]; exact R.delay, o4.trans R.mods, fun x _ => by rw [output_deb],
      R.owner.mono o3 o2 (fun x code e hu => ?_) (fun x code e n ha => ⟨n, Nat.le_refl _, ?_⟩)⟩
    · rw [if_pos (hmem x code e)]; exact hu
    · rw [if_pos (hmem x code e)]; exact ha
  obtain ⟨f1, f2, f3, f4⟩ := Mid.keys hb hD (keysOf L) (keysOf_nodup L)
    (fun x hx => (mem_keysOf L).mp hx) T hmid
  have hafter : Kb.after cfg L (p ++ (done ++ [inp])) =
      (keysOf L).foldl (fun k x => k.key cfg L (sample inp x.1 x.2) x.1 x.2) (Kb.after cfg L (p ++ done)).output := by
    rw [← List.append_assoc, after_snoc]
    rfl
  rw [← hafter] at f4
  exact ⟨f1, f2, f3, f4.map, f4.delay, f4.mods, by simpa using f4.owner⟩

/-- The text. -/
theorem Ready.text {p done more : List Input} {h : Hand} (R : Ready cfg L i d p done h)
    (hn : Tidy cfg L i h (p ++ done) more) (hb : Brief cfg L i d p (done ++ more)) :
    (Kb.after cfg L (p ++ done)).log cfg L Kb.typedBy more = typist cfg L i h.mods (p ++ done) more ∧
      (Kb.after cfg L (p ++ done)).log cfg L Kb.saidBy more = List.replicate more.length [] := by
  induction more generalizing done h with
  | nil => exact ⟨rfl, rfl⟩
  | cons inp more ih =>
    have ea : p ++ done ++ [inp] = p ++ (done ++ [inp]) := List.append_assoc _ _ _
    obtain ⟨n1, n2⟩ := hn
    rw [ea] at n1 n2
    have hb' : Brief cfg L i d p (done ++ [inp] ++ more) := by
      rw [List.append_assoc]; exact hb
    obtain ⟨s1, s2, s3, s4⟩ := R.scan n1 hb'
    obtain ⟨t1, t2⟩ := ih s4 n2 hb'
    have hpass : (Kb.after cfg L (p ++ done)).pass cfg L inp = Kb.after cfg L (p ++ (done ++ [inp])) := by
      rw [← ea, after_snoc]
    show _ :: _ = _ :: _ ∧ _ :: _ = _ :: _
    rw [hpass, s1, s2, t1, t2, s3, ea]
    exact ⟨rfl, rfl⟩

theorem typeKeys_lt {b a : Down} (xs : List (Nat × Nat)) {h : Hand} (T : tidyKeys cfg L i b a xs h) :
    (∀ y ∈ (typeKeys cfg L i b a xs h.mods).1, y.toNat < 0xA0) ∧
      (handAfter cfg L i b a xs h).mods = (typeKeys cfg L i b a xs h.mods).2 := by
  induction xs generalizing h with
  | nil => exact ⟨fun y hy => (by cases hy), rfl⟩
  | cons x xs ih =>
    obtain ⟨T1, T2⟩ := T
    obtain ⟨i1, i2⟩ := ih T2
    rw [typeKeys_hand]
    refine ⟨fun y hy => ?_, i2⟩
    rcases List.mem_append.mp hy with hy | hy
    · by_cases hba : b x.1 x.2 = a x.1 x.2
      · rw [if_pos hba] at hy
        cases hy
      · rw [if_neg hba] at hy
        split at hy
        · cases hy
        · rename_i hm
          split at hy
          · rename_i hav
            rw [List.mem_singleton] at hy
            subst hy
            have hbv : b x.1 x.2 = false := by
              cases e : b x.1 x.2
              · rfl
              · exact absurd (e.trans hav.symm) hba
            rcases T1.press hbv hav with ⟨z, e1, e2⟩ | e
            · rw [e2] at hm; exact absurd e1 hm
            · exact e.1
          · cases hy
    · exact i1 y hy

theorem typist_lt {h : Hand} {pre more : List Input} (T : Tidy cfg L i h pre more) :
    ∀ u ∈ typist cfg L i h.mods pre more, ∀ y ∈ u, y.toNat < 0xA0 := by
  induction more generalizing h pre with
  | nil => intro u hu; cases hu
  | cons inp more ih =>
    obtain ⟨h1, h2⟩ := T
    obtain ⟨k1, k2⟩ := typeKeys_lt _ h1
    have i := ih h2
    rw [k2] at i
    intro u hu
    rcases List.mem_cons.mp hu with rfl | hu
    · exact k1
    · exact i u hu

/-! ## Several scans -/

/-- The hand after these readings. -/
def handAt (cfg : Config) (L : Layout) (i : UInt8) : Hand → List Input → List Input → Hand
  | h, _, [] => h
  | h, pre, inp :: more =>
    handAt cfg L i (handAfter cfg L i (downAfter pre) (downAfter (pre ++ [inp])) (keysOf L) h) (pre ++ [inp]) more

theorem handAt_append (h : Hand) (pre u v : List Input) :
    handAt cfg L i h pre (u ++ v) = handAt cfg L i (handAt cfg L i h pre u) (pre ++ u) v := by
  induction u generalizing h pre with
  | nil => rw [List.append_nil]; rfl
  | cons x u ih =>
    show handAt cfg L i _ _ (u ++ v) = _
    rw [ih, List.append_assoc pre]
    rfl

theorem tidy_append (h : Hand) (pre u v : List Input) :
    Tidy cfg L i h pre (u ++ v) ↔ Tidy cfg L i h pre u ∧ Tidy cfg L i (handAt cfg L i h pre u) (pre ++ u) v := by
  induction u generalizing h pre with
  | nil => rw [List.append_nil]; exact ⟨fun h => ⟨trivial, h⟩, fun h => h.2⟩
  | cons x u ih =>
    have e := ih (handAfter cfg L i (downAfter pre) (downAfter (pre ++ [x])) (keysOf L) h) (pre ++ [x])
    rw [List.append_assoc pre] at e
    exact (and_congr_right' e).trans and_assoc.symm

theorem handAfter_cons (b a : Down) (x : Nat × Nat) (xs : List (Nat × Nat)) (h : Hand) :
    handAfter cfg L i b a (x :: xs) h = handAfter cfg L i b a xs (h.key cfg L i (b x.1 x.2) (a x.1 x.2) x) := rfl

theorem handAfter_mods (b a : Down) (xs : List (Nat × Nat)) (h : Hand) :
    (handAfter cfg L i b a xs h).mods = (typeKeys cfg L i b a xs h.mods).2 := by
  induction xs generalizing h with
  | nil => rfl
  | cons x xs ih =>
    rw [typeKeys_hand]
    exact ih _

theorem handAt_mods (h : Hand) (pre more : List Input) :
    (handAt cfg L i h pre more).mods = modsAt cfg L i h.mods pre more := by
  induction more generalizing h pre with
  | nil => rfl
  | cons x more ih =>
    show (handAt cfg L i _ _ more).mods = modsAt cfg L i _ _ more
    rw [ih, handAfter_mods]

theorem hand_congr {b b' a a' : Down} (xs : List (Nat × Nat))
    (e : ∀ x ∈ xs, b x.1 x.2 = b' x.1 x.2 ∧ a x.1 x.2 = a' x.1 x.2) (h : Hand) :
    (tidyKeys cfg L i b a xs h ↔ tidyKeys cfg L i b' a' xs h) ∧
      handAfter cfg L i b a xs h = handAfter cfg L i b' a' xs h := by
  induction xs generalizing h with
  | nil => exact ⟨Iff.rfl, rfl⟩
  | cons x xs ih =>
    obtain ⟨e1, e2⟩ := e x List.mem_cons_self
    have ih := ih fun y hy => e y (List.mem_cons_of_mem _ hy)
    unfold tidyKeys
    rw [handAfter_cons, handAfter_cons, e1, e2, (ih _).2, (ih _).1]
    exact ⟨Iff.rfl, rfl⟩

/-- What has to hold of a key that is held. -/
def Holds (cfg : Config) (L : Layout) (i : UInt8) (h : Hand) (x : Nat × Nat) : Prop :=
  (∀ y ∈ h.last, y.2 = h.mods.code cfg L i x.1 x.2 → y.1 = x) ∧
    (h.last = none → h.mods.code cfg L i x.1 x.2 ≠ 0xA0)

theorem tidy_still {h : Hand} {b : Bool} {x : Nat × Nat} (hh : b = true → Holds cfg L i h x) :
    h.Tidy cfg L i b b x ∧ h.key cfg L i b b x = h := by
  refine ⟨⟨fun e1 e2 => ?_, fun e1 e2 => ?_, fun e _ => hh e⟩, if_pos rfl⟩
  · rw [e1] at e2; cases e2
  · rw [e1] at e2; cases e2

/-- A scan without a change. -/
theorem tidy_same {S : Down} {h : Hand} (xs : List (Nat × Nat))
    (hh : ∀ x ∈ xs, S x.1 x.2 = true → Holds cfg L i h x) :
    tidyKeys cfg L i S S xs h ∧ handAfter cfg L i S S xs h = h := by
  induction xs with
  | nil => exact ⟨trivial, rfl⟩
  | cons x xs ih =>
    obtain ⟨t1, t2⟩ := tidy_still (b := S x.1 x.2) (hh x List.mem_cons_self)
    obtain ⟨i1, i2⟩ := ih fun y hy => hh y (List.mem_cons_of_mem _ hy)
    unfold tidyKeys
    rw [handAfter_cons, t2]
    exact ⟨⟨t1, i1⟩, i2⟩

/-- A scan with one change. -/
theorem tidy_one {b a : Down} {h h' : Hand} {z : Nat × Nat} (xs : List (Nat × Nat)) (hn : xs.Nodup) (hz : z ∈ xs)
    (hs : ∀ x ∈ xs, x ≠ z → b x.1 x.2 = a x.1 x.2)
    (h1 : ∀ x ∈ xs, x ≠ z → b x.1 x.2 = true → Holds cfg L i h x)
    (h2 : ∀ x ∈ xs, x ≠ z → a x.1 x.2 = true → Holds cfg L i h' x)
    (ht : h.Tidy cfg L i (b z.1 z.2) (a z.1 z.2) z) (hk : h.key cfg L i (b z.1 z.2) (a z.1 z.2) z = h') :
    tidyKeys cfg L i b a xs h ∧ handAfter cfg L i b a xs h = h' := by
  induction xs with
  | nil => cases hz
  | cons x xs ih =>
    obtain ⟨hx, hn⟩ := List.nodup_cons.mp hn
    unfold tidyKeys
    rw [handAfter_cons]
    by_cases e : x = z
    · subst e
      have hne : ∀ y ∈ xs, y ≠ x := fun y hy e => hx (e ▸ hy)
      have hba : ∀ y ∈ xs, b y.1 y.2 = a y.1 y.2 ∧ a y.1 y.2 = a y.1 y.2 := fun y hy =>
        ⟨hs y (List.mem_cons_of_mem _ hy) (hne y hy), rfl⟩
      obtain ⟨s1, s2⟩ := tidy_same (S := a) (h := h') xs fun y hy => h2 y (List.mem_cons_of_mem _ hy) (hne y hy)
      obtain ⟨c1, c2⟩ := hand_congr (cfg := cfg) (L := L) (i := i) xs hba h'
      rw [hk, c2]
      exact ⟨⟨ht, c1.mpr s1⟩, s2⟩
    · have hb := hs x List.mem_cons_self e
      obtain ⟨t1, t2⟩ := tidy_still (b := b x.1 x.2) (h1 x List.mem_cons_self e)
      obtain ⟨i1, i2⟩ := ih hn ((List.mem_cons.mp hz).resolve_left fun e' => e e'.symm)
        (fun y hy => hs y (List.mem_cons_of_mem _ hy)) (fun y hy => h1 y (List.mem_cons_of_mem _ hy))
        (fun y hy => h2 y (List.mem_cons_of_mem _ hy))
      rw [← hb, t2]
      exact ⟨⟨t1, i1⟩, i2⟩

end Loose

end Asdf
