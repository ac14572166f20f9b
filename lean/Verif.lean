import Verif.Props.GetAmp
import Verif.Props.DelayTimes
import Verif.Props.HkZhu
import Verif.Props.HkZhu2
import Verif.Props.PostCritical
import Verif.Props.Plot
import Verif.Props.Variants
import Verif.Props.Seq
import Verif.Props.Resonance
import Verif.Props.ResonancePlot
import Verif.Props.Pool
import Verif.Props.Waveform
import Verif.Props.Waveform2
import Verif.Props.Waveform3
import Verif.Props.Waveform4
import Verif.Props.WaveformSample
import Verif.Props.Deconv
import Verif.Props.Deconv2
import Verif.Props.Forward
import Verif.Props.Figures
import Verif.Props.WaveformFigures
import Verif.Props.SynrfObject
import Verif.Props.SynrfHistory
import Verif.Props.Extract
import Verif.Props.Extract2
import Verif.Props.Util
import Verif.Props.EndToEnd
import Verif.Props.HalfSpace
import Verif.Props.WaveformRecovery
import Verif.Model.WaveformSynth
import Verif.Props.WaveformSynth
import Verif.Props.UtilData
import Verif.Spec.Delays
import Verif.Proofs.Delays
import Verif.Proofs.Reverb
import Verif.Props.Arrivals
import Verif.Proofs.DeconvScale
import Verif.Props.DeconvScale
import Verif.Proofs.Refine
import Verif.Props.Refine
import Verif.Spec.Table
import Verif.Proofs.Superpose
import Verif.Props.Superpose
import Verif.Spec.Window
import Verif.Proofs.Window
import Verif.Props.Window
import Verif.Props.Noise
import Verif.Spec.Units
import Verif.Proofs.Units
import Verif.Props.Units
import Verif.Props.ResonanceUnits
import Verif.Props.WaveformIgnores
import Verif.Props.WaveformTotal
import Verif.Props.WaveformRefine
import Verif.Props.ExtractMore
import Verif.Props.DeconvShift
import Verif.Props.Total
import Verif.Py.Rounded
import Verif.Spec.Rounding
import Verif.Proofs.Rounded
import Verif.Props.Rounding
import Verif.Spec.Gain
import Verif.Proofs.Gain
import Verif.Props.Gain
import Verif.Props.NoiseSeq
import Verif.Props.Frame
import Verif.Props.ExtractCrash
import Verif.Props.DeconvConverge
import Verif.Proofs.Util2
import Verif.Props.UtilOver
import Verif.Props.WindowMore
import Verif.Props.DeconvTotal
import Verif.Props.DeconvNoise
import Verif.Spec.Deviation
import Verif.Props.WaveformNoise
import Verif.Props.ResonanceNoise
import Verif.Props.Rounding2
import Verif.Spec.Missing
import Verif.Proofs.Missing
import Verif.Props.Missing
import Verif.Spec.Tradeoff
import Verif.Proofs.Tradeoff
import Verif.Props.Tradeoff
import Verif.Props.PsOnly
import Verif.Props.Accuracy
import Verif.Props.SuperposeMore
import Verif.Props.WaveformParallel
import Verif.Proofs.Rounded3
import Verif.Props.RoundingStack
import Verif.Spec.SedimentError
import Verif.Props.SedimentError
import Verif.Spec.Nearest
import Verif.Proofs.Nearest
import Verif.Props.WaveformFloat
import Verif.Props.Slowness
import Verif.Props.SedimentMethods
import Verif.Spec.Files
import Verif.Props.SavedFiles
import Verif.Props.WaveformRounding
import Verif.Spec.Resolution
import Verif.Proofs.Resolution
import Verif.Props.Resolution
import Verif.Spec.Continuity
import Verif.Proofs.Continuity
import Verif.Props.Continuity
import Verif.Proofs.WaterNoise
import Verif.Props.WaterNoise
import Verif.Props.ContinuityRF
import Verif.Model.WaterRounded
import Verif.Proofs.WaterRounded
import Verif.Props.WaterRounded
import Verif.Spec.Norm
import Verif.Model.IterRounded
import Verif.Proofs.IterRounded
import Verif.Proofs.IterRounded2
import Verif.Props.IterRounded
import Verif.Props.ResonanceRounded
import Verif.Props.SeqRaw
import Verif.Py.Arith
import Verif.Proofs.Arith
import Verif.Model.ForwardRounded
import Verif.Model.SynthRounded
import Verif.Proofs.ForwardRounded
import Verif.Props.ForwardRounded
import Verif.Props.SynthRounded
import Verif.Proofs.ArithRate
import Verif.Props.ForwardRate
import Verif.Spec.Proportional
import Verif.Props.SynthRate
import Verif.Proofs.Differentiability
import Verif.Props.Sensitivity
import Verif.Props.SensitivityRF
import Verif.Spec.Ties
import Verif.Proofs.IterSmooth
import Verif.Proofs.IterSteady
import Verif.Props.Ties
import Verif.Props.TiesSteady
import Verif.Props.TiesCopy
import Verif.Props.TiesJump
import Verif.Props.TiesRF
import Verif.Props.WaveformSensitivity
import Verif.Props.WaveformSensitivityCase
import Verif.Props.IterClear
import Verif.Props.IterClearRF
import Verif.Proofs.Limit
import Verif.Props.Experiment
import Verif.Props.ExperimentSeq
import Verif.Props.ExperimentYu
import Verif.Props.ExperimentRF
import Verif.Props.ExperimentResonance
import Verif.Props.ExperimentCase
import Verif.Props.ExperimentCase2
import Verif.Props.ExperimentCase3
import Verif.Props.ExperimentHk
import Verif.Props.ExperimentHkSeq
import Verif.Props.ExperimentCase4
import Verif.Props.NoiseStack
import Verif.Props.ExperimentHkSeqStack
import Verif.Spec.PostCritical
import Verif.Proofs.PostCriticalSeq
import Verif.Props.PostCriticalSeq
import Verif.Spec.WaveExperiment
import Verif.Proofs.WaveLimit
import Verif.Props.ExperimentWave
import Verif.Props.ExperimentSediment
import Verif.Props.ExperimentCase5
import Verif.Spec.Recording
import Verif.Props.RecordedNoise
import Verif.Props.RecordedNoiseCase
import Verif.Props.RecordedNoiseSeq
import Verif.Props.RecordedNoiseCase2
import Verif.Spec.Average
import Verif.Props.RecordedNoiseStack
import Verif.Props.RecordedNoiseStackCase
import Verif.Props.RecordedNoiseStackCase2
import Verif.Props.RecordedNoiseWave
import Verif.Props.RecordedNoiseWaveCase
import Verif.Props.RecordedNoiseYu
import Verif.Props.RecordedNoiseYuCase
import Verif.Props.ResolutionSeqStack
import Verif.Props.MoreIterations
import Verif.Props.WaterLevel
import Verif.Props.GaussWidth
import Verif.Props.WeightSwing
import Verif.Props.WeightMix
import Verif.Props.WeightNoise
import Verif.Props.WeightNoiseWave
import Verif.Props.WeightEnvelope
import Verif.Props.LayerNames
