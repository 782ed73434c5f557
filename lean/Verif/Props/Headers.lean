import Verif.Lemmas.Reads
/-!
# C16, C23, C24, C25 and the C07 instances: OBU header, colour configuration, sequence header
-/
namespace Gov1
open Spec

/-! ## C16 OBU header -/

/-- C16: parsing the reference encoding of any header returns it and consumes exactly the encoding. -/
theorem C16_header_roundtrip (h : Header) (hv : ValidHeader h) (s : BitStream) (rest : List Bool)
    (hs : unread s = encHeader h ++ rest) :
    newHeader s = .ok (h, s.advance (if h.extensionFlag then 16 else 8)) := by
  obtain ⟨ht, h1, h2, h3, h4⟩ := hv
  obtain ⟨fb, ty, ef, hsz, rb, ⟨ti, si, r3⟩⟩ := h
  have key : Reads newHeader (encHeader ⟨fb, ty, ef, hsz, rb, ⟨ti, si, r3⟩⟩)
      ⟨fb, ty, ef, hsz, rb, ⟨ti, si, r3⟩⟩ := by
    unfold newHeader encHeader
    simp only [List.append_assoc]
    refine (Reads.flag fb).bind ((Reads.F (by simpa using ht)).bind ((Reads.flag ef).bind
      ((Reads.flag hsz).bind ((Reads.flag rb).bind ?_))))
    cases ef with
    | true =>
      simp only [if_true]
      refine Reads.bindLast (f := fun e => (⟨fb, ty, true, hsz, rb, e⟩ : Header))
        (a := ⟨ti, si, r3⟩) ?_
      exact (Reads.F (by simpa using h1)).bind ((Reads.F (by simpa using h2)).bind
        (Reads.bindLast (f := fun r => (⟨ti, si, r⟩ : ExtensionHeader)) (Reads.F (by simpa using h3))))
    | false =>
      have := h4 rfl
      cases this
      exact Reads.pure _
  rw [key s rest hs]
  congr 3
  cases ef <;> simp [encHeader, bit]

/-- C16: every bit pattern is accepted: with 16 bits left the header parser never panics. -/
theorem C16_header_total (s : BitStream) (h : 16 ≤ (unread s).length) :
    ∃ hd, newHeader s = .ok (hd, s.advance (if hd.extensionFlag then 16 else 8)) ∧ ValidHeader hd := by
  have F' : ∀ (n : Nat) (t : BitStream), n ≤ (unread t).length →
      ∃ v, F n t = .ok (v, t.advance n) ∧ v < 2 ^ n := by
    intro n t ht
    have h1 : F n t = .ok (bitsVal ((unread t).take n), t.advance n) := by rw [F_eq, if_pos ht]
    exact ⟨_, h1, (F_ok h1).1⟩
  have flag' : ∀ (t : BitStream), 1 ≤ (unread t).length → ∃ b, flag t = .ok (b, t.advance 1) := by
    intro t ht
    obtain ⟨v, hv, -⟩ := F' 1 t ht
    exact ⟨v != 0, by rw [flag, BM.bind_ok hv]; rfl⟩
  unfold newHeader
  obtain ⟨fb, e1⟩ := flag' s (by omega)
  obtain ⟨ty, e2, hty⟩ := F' 4 (s.advance 1) (by simp; omega)
  obtain ⟨ef, e3⟩ := flag' (s.advance 5) (by simp; omega)
  obtain ⟨hz, e4⟩ := flag' (s.advance 6) (by simp; omega)
  obtain ⟨rb, e5⟩ := flag' (s.advance 7) (by simp; omega)
  rw [BM.bind_ok e1, BM.bind_ok e2, advance_advance, BM.bind_ok e3, advance_advance, BM.bind_ok e4,
    advance_advance, BM.bind_ok e5, advance_advance]
  cases ef with
  | false => exact ⟨_, rfl, by simpa using hty, by simp, by simp, by simp, by simp⟩
  | true =>
    obtain ⟨t, g1, ht⟩ := F' 3 (s.advance 8) (by simp; omega)
    obtain ⟨sp, g2, hsp⟩ := F' 2 (s.advance 11) (by simp; omega)
    obtain ⟨r, g3, hr⟩ := F' 3 (s.advance 13) (by simp; omega)
    refine ⟨⟨fb, ty, true, hz, rb, ⟨t, sp, r⟩⟩, ?_, by simpa using hty, by simpa using ht,
      by simpa using hsp, by simpa using hr, by simp⟩
    simp only [if_true, newExtensionHeader]
    rw [BM.bind_ok (a := ⟨t, sp, r⟩) (s' := s.advance 16)]
    · rfl
    · rw [BM.bind_ok g1, advance_advance, BM.bind_ok g2, advance_advance, BM.bind_ok g3,
        advance_advance]
      rfl

/-- The header of the repository's own unit test. -/
example : ValidHeader ⟨true, 1, true, false, true, ⟨7, 1, 1⟩⟩ ∧
    encHeader ⟨true, 1, true, false, true, ⟨7, 1, 1⟩⟩ = bytesBits [0b10001101, 0b11101001] := by
  refine ⟨⟨by decide, by decide, by decide, by decide, by decide⟩, by decide⟩

/-- C07: the OBU header parser is a streaming reader. -/
theorem C07_header_streaming : Streaming newHeader := by
  unfold newHeader newExtensionHeader
  repeat first | exact Streaming.flag | streaming_step

/-! ## C24 colour configuration -/

theorem C07_colorConfig_streaming (p : Nat) : Streaming (newColorConfig p) := by
  unfold newColorConfig ccBitDepth ccDescription ccSubsampling
  repeat first | exact Streaming.flag | streaming_step

/-- C24: the specification's encoding of any valid colour configuration is parsed back. -/
theorem C24_colorConfig_roundtrip (profile : Nat) (c : ColorConfig) (hv : ValidColor profile c)
    (s : BitStream) (rest : List Bool) (hs : unread s = encColorConfig profile c ++ rest) :
    newColorConfig profile s = .ok (c, s.advance (encColorConfig profile c).length) := by
  refine (?_ : Reads (newColorConfig profile) (encColorConfig profile c) c) s rest hs
  obtain ⟨hbd, tw, mono, cdp, cp, tc, mc, cr, ssx, ssy, csp, suv, np, bd⟩ := c
  obtain ⟨hp, htw, hdep, hm1, hpl, hnd, ⟨hcp, htc, hmc⟩, hmono, hsr, hp0, hp1, hp2, hvert, hcl, hcsp⟩ := hv
  simp only at *
  unfold newColorConfig encColorConfig
  simp only [List.append_assoc]
  refine (Reads.flag hbd).bind ?_
  refine Reads.bind (a := (tw, bd)) ?_ ?_
  · unfold ccBitDepth
    by_cases h2 : profile = 2 ∧ hbd = true
    · rw [if_pos h2, if_pos h2]
      obtain ⟨-, rfl⟩ := h2
      simp only [if_true] at hdep
      rw [hdep]
      exact Reads.bindLast (f := fun t : Bool => (t, if t then 12 else 10)) (Reads.flag tw)
    · rw [if_neg h2, if_neg h2, if_pos hp]
      have : tw = false := by
        cases tw with
        | false => rfl
        | true => exact absurd (htw rfl) h2
      subst this
      rw [hdep]; simp
      exact Reads.pure _
  refine Reads.bind (a := mono) ?_ ?_
  · by_cases h1 : profile = 1
    · rw [if_pos h1, if_neg (by simpa using h1), hm1 h1]; exact Reads.pure _
    · rw [if_neg h1, if_pos h1]; exact Reads.flag _
  rw [← List.append_assoc (bit cdp)]
  refine Reads.bind (a := (cdp, cp, tc, mc)) ?_ ?_
  · unfold ccDescription
    refine (Reads.flag cdp).bind ?_
    cases cdp with
    | true =>
      simp only [if_true]
      exact (Reads.F (by simpa using hcp)).bind ((Reads.F (by simpa using htc)).bind
        (Reads.bindLast (f := fun m => (true, cp, tc, m)) (Reads.F (by simpa using hmc))))
    | false =>
      obtain ⟨rfl, rfl, rfl⟩ := hnd rfl
      exact Reads.pure _
  dsimp only
  cases mono with
  | true =>
    obtain ⟨rfl, rfl, rfl, rfl⟩ := hmono rfl
    simp only [if_true] at hpl ⊢
    rw [hpl]
    exact Reads.bindLast (Reads.flag cr)
  | false =>
    simp only [Bool.false_eq_true, if_false] at hpl ⊢
    rw [hpl]
    by_cases hrgb : cp = 1 ∧ tc = 13 ∧ mc = 0
    · have hsr' : isSrgb (⟨hbd, tw, false, cdp, cp, tc, mc, cr, ssx, ssy, csp, suv, 3, bd⟩ : ColorConfig) := hrgb
      rw [if_pos hrgb, if_pos hsr']
      obtain ⟨rfl, rfl, rfl, rfl⟩ := hsr rfl hrgb
      exact Reads.bindLast (Reads.flag suv)
    · have hns : ¬ isSrgb (⟨hbd, tw, false, cdp, cp, tc, mc, cr, ssx, ssy, csp, suv, 3, bd⟩ : ColorConfig) := hrgb
      rw [if_neg hrgb, if_neg hns]
      refine (Reads.flag cr).bind ?_
      refine Reads.bind (a := (ssx, ssy)) ?_ ?_
      · unfold ccSubsampling
        by_cases h0 : profile = 0
        · obtain ⟨rfl, rfl⟩ := hp0 rfl hns h0
          rw [if_pos h0, if_neg (by omega)]; exact Reads.pure _
        · rw [if_neg h0]
          by_cases h1 : profile = 1
          · obtain ⟨rfl, rfl⟩ := hp1 rfl hns h1
            rw [if_pos h1, if_neg (by omega)]; exact Reads.pure _
          · rw [if_neg h1]
            by_cases h12 : bd = 12
            · rw [if_pos h12, if_pos ⟨by omega, h12⟩]
              refine (Reads.flag ssx).bind ?_
              cases ssx with
              | true => exact Reads.bindLast (f := fun y : Bool => (true, y)) (Reads.flag ssy)
              | false =>
                have : ssy = false := by cases ssy with
                  | false => rfl
                  | true => exact absurd (hvert rfl) (by simp)
                subst this
                exact Reads.pure _
            · obtain ⟨rfl, rfl⟩ := hp2 rfl hns (by omega) h12
              rw [if_neg h12, if_neg (by omega)]; exact Reads.pure _
      · dsimp only
        refine Reads.bind (a := csp) ?_ ?_
        · by_cases hb : ssx = true ∧ ssy = true
          · rw [if_pos hb, if_pos (by simp [hb])]
            exact Reads.F (by simpa using hcl)
          · rw [if_neg hb, if_neg (by simpa using hb), hcsp hb]; exact Reads.pure _
        · exact Reads.bindLast (Reads.flag suv)

/-- C24: conversely, for the three AV1 profiles every successful parse yields a valid colour
configuration, and the bits consumed are exactly its reference encoding. -/
theorem C24_colorConfig_valid (profile : Nat) (hp : profile ≤ 2) (s s' : BitStream) (c : ColorConfig)
    (h : newColorConfig profile s = .ok (c, s')) :
    ValidColor profile c ∧ ∃ rest, unread s = encColorConfig profile c ++ rest ∧
      s' = s.advance (encColorConfig profile c).length := by
  have key : Yields (newColorConfig profile)
      (fun bits c => ValidColor profile c ∧ bits = encColorConfig profile c) := by
    unfold newColorConfig
    refine Yields.flag.bind fun hbd _ e1 => ?_
    subst e1
    have hBD : Yields (ccBitDepth profile hbd) (fun bits r =>
        bits = (if profile = 2 ∧ hbd = true then bit r.1 else []) ∧
        (r.1 = true → profile = 2 ∧ hbd = true) ∧
        r.2 = if hbd then (if r.1 then 12 else 10) else 8) := by
      unfold ccBitDepth
      by_cases h2 : profile = 2 ∧ hbd = true
      · rw [if_pos h2]
        refine Yields.flag.bind fun b _ e => Yields.pure ?_
        subst e; simp [h2]
      · rw [if_neg h2, if_pos hp]
        exact Yields.pure (by simp [h2])
    refine hBD.bind fun r b2 e2 => ?_
    obtain ⟨tw, bd⟩ := r
    obtain ⟨rfl, htw, hbdv⟩ := e2
    simp only at htw hbdv ⊢
    have hMono : Yields (if profile ≠ 1 then flag else pure false) (fun bits m =>
        bits = (if profile = 1 then [] else bit m) ∧ (profile = 1 → m = false)) := by
      by_cases h1 : profile = 1
      · rw [if_neg (by simpa using h1)]; exact Yields.pure (by simp [h1])
      · rw [if_pos h1]; exact Yields.flag.mono fun bits m e => by simp [h1, e]
    refine hMono.bind fun mono b3 e3 => ?_
    obtain ⟨rfl, hm1⟩ := e3
    have hDesc : Yields ccDescription (fun bits r =>
        bits = bit r.1 ++ (if r.1 then encF 8 r.2.1 ++ encF 8 r.2.2.1 ++ encF 8 r.2.2.2 else []) ∧
        (r.1 = false → r.2.1 = 2 ∧ r.2.2.1 = 2 ∧ r.2.2.2 = 2) ∧
        r.2.1 < 256 ∧ r.2.2.1 < 256 ∧ r.2.2.2 < 256) := by
      unfold ccDescription
      refine Yields.flag.bind fun b _ e => ?_
      subst e
      cases b with
      | true =>
        simp only [if_true]
        refine (Yields.F 8).bind fun cp _ e => (Yields.F 8).bind fun tc _ e' =>
          (Yields.F 8).bind fun mc _ e'' => Yields.pure ?_
        obtain ⟨rfl, h1⟩ := e
        obtain ⟨rfl, h2⟩ := e'
        obtain ⟨rfl, h3⟩ := e''
        simpa using ⟨h1, h2, h3⟩
      | false => exact Yields.pure (by simp)
    refine hDesc.bind fun r b4 e4 => ?_
    obtain ⟨cdp, cp, tc, mc⟩ := r
    obtain ⟨rfl, hnd, hcp, htc, hmc⟩ := e4
    simp only at hnd hcp htc hmc ⊢
    cases mono with
    | true =>
      simp only [if_true]
      refine Yields.flag.bind fun cr _ e => Yields.pure ?_
      subst e
      refine ⟨⟨hp, htw, hbdv, by simpa using hm1, rfl, hnd, ⟨hcp, htc, hmc⟩, by simp, by simp, by simp,
        by simp, by simp, by simp, by simp, by simp⟩, ?_⟩
      simp [encColorConfig]
    | false =>
      simp only [Bool.false_eq_true, if_false]
      by_cases hrgb : cp = 1 ∧ tc = 13 ∧ mc = 0
      · rw [if_pos hrgb]
        refine Yields.flag.bind fun suv _ e => Yields.pure ?_
        subst e
        have hs : isSrgb (⟨hbd, tw, false, cdp, cp, tc, mc, true, false, false, 0, suv, 3, bd⟩ : ColorConfig) := hrgb
        refine ⟨⟨hp, htw, hbdv, by simp, rfl, hnd, ⟨hcp, htc, hmc⟩, by simp, by simp,
          fun _ h => absurd hs h, fun _ h => absurd hs h, fun _ h => absurd hs h, by simp, by simp, by simp⟩, ?_⟩
        simp [encColorConfig, hs]
      · rw [if_neg hrgb]
        refine Yields.flag.bind fun cr _ e => ?_
        subst e
        have hSub : Yields (ccSubsampling profile bd) (fun bits r =>
            bits = (if 2 ≤ profile ∧ bd = 12 then bit r.1 ++ (if r.1 then bit r.2 else []) else []) ∧
            (profile = 0 → r.1 = true ∧ r.2 = true) ∧ (profile = 1 → r.1 = false ∧ r.2 = false) ∧
            (profile = 2 → bd ≠ 12 → r.1 = true ∧ r.2 = false) ∧ (r.2 = true → r.1 = true)) := by
          unfold ccSubsampling
          by_cases h0 : profile = 0
          · rw [if_pos h0]; exact Yields.pure (by simp [h0])
          · rw [if_neg h0]
            by_cases h1 : profile = 1
            · rw [if_pos h1]; exact Yields.pure (by simp [h1])
            · rw [if_neg h1]
              have h2 : profile = 2 := by omega
              by_cases h12 : bd = 12
              · rw [if_pos h12]
                refine Yields.flag.bind fun x _ e => ?_
                subst e
                cases x with
                | true =>
                  refine Yields.flag.bind fun y _ e => Yields.pure ?_
                  subst e; simp [h2, h12]
                | false => exact Yields.pure (by simp [h2, h12])
              · rw [if_neg h12]; exact Yields.pure (by simp [h2, h12])
        refine hSub.bind fun r b5 e5 => ?_
        obtain ⟨ssx, ssy⟩ := r
        obtain ⟨rfl, hp0, hp1, hp2, hvert⟩ := e5
        simp only at hp0 hp1 hp2 hvert ⊢
        have hCsp : Yields (if ssx && ssy then F 2 else pure 0) (fun bits v =>
            bits = (if ssx = true ∧ ssy = true then encF 2 v else []) ∧ v < 4 ∧
            (¬ (ssx = true ∧ ssy = true) → v = 0)) := by
          by_cases hb : ssx = true ∧ ssy = true
          · rw [if_pos (by simp [hb])]
            exact (Yields.F 2).mono fun bits v e => by simpa [hb] using e
          · rw [if_neg (by simpa using hb)]; exact Yields.pure (by simp [hb])
        refine hCsp.bind fun csp b6 e6 => ?_
        obtain ⟨rfl, hcl, hcz⟩ := e6
        refine Yields.flag.bind fun suv _ e => Yields.pure ?_
        subst e
        have hs : ¬ isSrgb (⟨hbd, tw, false, cdp, cp, tc, mc, cr, ssx, ssy, csp, suv, 3, bd⟩ : ColorConfig) := hrgb
        refine ⟨⟨hp, htw, hbdv, by simp, rfl, hnd, ⟨hcp, htc, hmc⟩, by simp, fun _ h => absurd h hs,
          fun _ _ => hp0, fun _ _ => hp1, fun _ _ => hp2, hvert, hcl, hcz⟩, ?_⟩
        simp [encColorConfig, hs]
  obtain ⟨bits, rest, h1, h2, h3, rfl⟩ := key s c s' h
  exact ⟨h3, rest, h1, h2⟩

/-- A 4:2:0 10-bit configuration with a colour description. -/
example : ValidColor 0 ⟨true, false, false, true, 9, 16, 9, false, true, true, 1, true, 3, 10⟩ := by
  constructor <;> simp [isSrgb]

end Gov1
