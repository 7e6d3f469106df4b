import Verif.Lemmas.ExpandedGuard
import Verif.Lemmas.ExpandSample
/-!
# C40: the files of sounds
-/
namespace Vpin

/-- **C40**: expanding a table writes a file in the directory `sounds` for every sound, with the sound's data. Its name
ends in the extension of the sound's path, or in `wav` if that has none. -/
theorem C40_sound_extension (E : ExpandEnv) (root : Str) (sounds : List SoundData) (s : SoundData) (hs : s ∈ sounds) :
    ∃ stem ext, FsStep.write (joinPath (joinPath root "sounds".toList) (stem ++ ".".toList ++ ext)) (s.export E.ext) ∈
        writeSounds E root sounds ∧
      (∀ e, E.ext s.path = some e → e ≠ [] → ext = e) ∧
      (E.ext s.path = none ∨ E.ext s.path = some [] → ext = "wav".toList) := by
  have hlen : (dedupNames E [] 0 (sounds.map (·.name))).length = sounds.length := by
    rw [dedupNames_length, List.length_map]
  obtain ⟨i, hi, rfl⟩ := List.mem_iff_getElem.1 hs
  have hmem : (sounds[i], (dedupNames E [] 0 (sounds.map (·.name)))[i]'(by omega)) ∈
      sounds.zip (dedupNames E [] 0 (sounds.map (·.name))) :=
    List.mem_iff_getElem.2 ⟨i, by rw [List.length_zip]; omega, by simp⟩
  generalize (dedupNames E [] 0 (sounds.map (·.name)))[i]'(by omega) = d at hmem
  refine ⟨d.getD (E.sanitize sounds[i].name), soundExt E sounds[i].path, ?_, ?_, ?_⟩
  · unfold writeSounds
    refine List.mem_cons_of_mem _ (List.mem_flatMap.2 ⟨_, hmem, ?_⟩)
    simp [SoundData.file, fileName]
  · intro e he hne
    unfold soundExt strPathExt
    rw [he]
    cases e with
    | nil => exact absurd rfl hne
    | cons => rfl
  · intro h
    unfold soundExt strPathExt
    rcases h with h | h <;> rw [h] <;> rfl

/-- two sounds, one with an extension and one without -/
example (s : SoundData) : { s with path := "a".toList } ∈ [{ s with path := "a.ogg".toList }, { s with path := "a".toList }] ∧
    sampleExpand.ext "a.ogg".toList = some "ogg".toList ∧
    (sampleExpand.ext "a".toList = none ∨ sampleExpand.ext "a".toList = some []) :=
  ⟨by simp, by decide +kernel, by decide +kernel⟩

end Vpin
