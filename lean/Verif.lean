import Verif.Py.Basic
import Verif.Units.Model
import Verif.Units.Spec
import Verif.Units.Lemmas
import Verif.Units.Alias
import Verif.Units.Props
import Verif.Units.AliasExact
import Verif.StatMech.Model
import Verif.StatMech.Schedule
import Verif.StatMech.Oscillator
import Verif.StatMech.Limits
import Verif.StatMech.Props
import Verif.HA.Props
import Verif.Poly.Props
import Verif.Grid.Props
import Verif.Poly.LeastSquares
import Verif.QHA.Props
import Verif.QHA.Witness
import Verif.EoS.Props
import Verif.EoS.Axial
import Verif.Session.Props
import Verif.Session.Carried
import Verif.Elastic.Props
import Verif.Elastic.BinaryModel
import Verif.Elastic.BinarySpec
import Verif.Elastic.BinaryLemmas
import Verif.Elastic.BinaryProps
import Verif.Elastic.BinaryCases
import Verif.Elastic.Symmetry
import Verif.Seismic.Cache
import Verif.Seismic.Waves
import Verif.Seismic.Group
import Verif.Seismic.Expansion
import Verif.Seismic.Derivative
import Verif.Seismic.Scan
import Verif.Seismic.Projection
import Verif.Seismic.Isotropic
import Verif.Seismic.Plot
import Verif.IO.SoecProps
import Verif.IO.EoSProps
import Verif.IO.EoSHang
import Verif.Interfaces.SoecWitness
import Verif.Interfaces.SoecBad
import Verif.Interfaces.CrystalWitness
import Verif.Chemistry.Props
import Verif.Interfaces.CrystalQHAWitness
import Verif.Phonon.ReaderProps
import Verif.Phonon.PhonopyWitness
import Verif.Phonon.GeneratorProps
import Verif.Phonon.YamlUnique
import Verif.Export.Hdf5Props
import Verif.Export.ExporterWitness
import Verif.Export.UnitLabels
import Verif.Kieffer.Props
import Verif.Command.Witness
import Verif.Polar.Witness
import Verif.Export.ElasticWitness
import Verif.Guess.Props
import Verif.Report.StaticProps
import Verif.Report.ConciseProps
import Verif.EoS.IdentifyP
import Verif.EoS.NormalizeProps
import Verif.Report.EosFitProps
import Verif.Report.QhaProps
import Verif.Report.ElasticProps
import Verif.Report.ElasticWidth
import Verif.Report.EosWidth
import Verif.Report.HarmonicProps
import Verif.Report.SettingsProps
import Verif.Report.SeismicInputProps
import Verif.Command.GroupProps
import Verif.Elastic.RotationProps
import Verif.Seismic.Rotation
import Verif.Seismic.RayProps
import Verif.Elastic.Relations
import Verif.Seismic.Rod
import Verif.QHA.Pressure
import Verif.QHA.Temperature
import Verif.Elastic.Scaling
import Verif.Seismic.Scaling
import Verif.QHA.Copies
import Verif.EoS.Units
import Verif.Elastic.ClassesSpec
import Verif.Elastic.Classes
import Verif.Seismic.Classes
import Verif.StatMech.Frequency
import Verif.QHA.Rigid
import Verif.EoS.NormalizeErrors
import Verif.Elastic.Stiffer
import Verif.Elastic.Sandwich
import Verif.Elastic.Extremes
import Verif.Seismic.Stiffer
import Verif.Seismic.Sandwich
import Verif.Seismic.BinaryModel
import Verif.Seismic.BinarySpec
import Verif.Seismic.BinaryLemmas
import Verif.Seismic.BinaryProps
import Verif.Seismic.BinaryCases
import Verif.Seismic.SumRules
import Verif.Seismic.MotionSpec
import Verif.Seismic.Motion
import Verif.Export.Generic
import Verif.Export.GenericLemmas
import Verif.Export.GenericProps
import Verif.Export.GenericWitness
import Verif.Seismic.Figures
import Verif.Seismic.FigureProps
import Verif.Elastic.RunProps
import Verif.Elastic.Orientation
import Verif.Elastic.OrientationProps
import Verif.QHA.Zero
import Verif.QHA.Curves
import Verif.QHA.CurvesCases
import Verif.StatMech.ClassicalLemmas
import Verif.StatMech.Classical
import Verif.HA.Classical
import Verif.QHA.Expansion
import Verif.QHA.GridSpec
import Verif.QHA.GridProps
import Verif.QHA.Cases
import Verif.EoS.Inverse
import Verif.Grid.Float
import Verif.Units.SI
import Verif.QHA.Angstrom
import Verif.Report.Job
import Verif.Poly.Derivative
import Verif.Poly.Binary
import Verif.Units.Cases
import Verif.StatMech.Cases
import Verif.StatMech.BinaryCases
import Verif.HA.Cases
import Verif.Grid.Cases
import Verif.Poly.Cases
import Verif.Kieffer.Cases
import Verif.Chemistry.Cases
import Verif.EoS.Cases
import Verif.EoS.BinaryCases
import Verif.Elastic.Cases
import Verif.Seismic.Cases
import Verif.Elastic.Sensitivity
import Verif.Seismic.Sensitivity
import Verif.Elastic.Near
import Verif.Chain.Spec
import Verif.Chain.Accuracy
import Verif.Chain.Model
import Verif.Chain.ElasticProps
import Verif.Chain.TableSpec
import Verif.Chain.TableProps
import Verif.Chain.TableCases
import Verif.Chain.VaspProps
import Verif.Chain.SectionSpec
import Verif.Chain.SectionProps
import Verif.Chain.SectionCases
import Verif.Chain.WaveSpec
import Verif.Chain.WaveProps
import Verif.Chain.WaveCases
import Verif.Chain.Witness
import Verif.Chain.PhononModel
import Verif.Chain.PhononSpec
import Verif.Chain.Oscillators
import Verif.Chain.PhononProps
import Verif.Chain.PhononWitness
import Verif.Chain.DispersionSpec
import Verif.Chain.DispersionModel
import Verif.Chain.DispersionProps
import Verif.Chain.DispersionCases
import Verif.Chain.QuasiModel
import Verif.Chain.QuasiSpec
import Verif.Chain.QuasiProps
import Verif.Chain.QuasiCases
import Verif.Chain.QuasiTableSpec
import Verif.Chain.QuasiTableProps
import Verif.Chain.QuasiTableCases
import Verif.Chain.PhonopyModel
import Verif.Chain.PhonopySpec
import Verif.Chain.PhonopyProps
import Verif.Chain.PhonopyCases
import Verif.Chain.EosModel
import Verif.Chain.EosSpec
import Verif.Chain.EosProps
import Verif.Chain.EosCases
import Verif.Elastic.Classifier
import Verif.Report.Info
import Verif.QHA.EosMinSpec
import Verif.QHA.EosMin
import Verif.QHA.EosMinBirch
import Verif.QHA.EosMinCases
import Verif.QHA.BinaryCases
import Verif.IO.Cases
import Verif.Phonon.Cases
import Verif.Session.Cases
import Verif.Command.Cases
import Verif.Export.Cases
import Verif.Guess.Cases
import Verif.Interfaces.Cases
import Verif.Units.BinaryModel
import Verif.Units.BinarySpec
import Verif.Units.BinaryLemmas
import Verif.Units.BinaryProps
import Verif.Units.BinaryOrder
import Verif.Units.BinaryCases
import Verif.StatMech.Sensitivity
import Verif.HA.Sensitivity
import Verif.Poly.Noise
import Verif.QHA.Noise
import Verif.QHA.NoiseCases
import Verif.StatMech.RoundSpec
import Verif.Grid.FloatReal
import Verif.Report.Cases
import Verif.QHA.ExpansionLimit
import Verif.QHA.ExpansionLimitCases
import Verif.QHA.ThermoCurves
import Verif.QHA.ThermoCurvesCases
import Verif.QHA.PressureCurves
import Verif.QHA.PressureCurvesCases
import Verif.QHA.FreqGibbs
import Verif.QHA.FreqGibbsCases
import Verif.QHA.Classical
import Verif.Grid.Angles
import Verif.Grid.FineFloat
import Verif.Seismic.RayBound
import Verif.Polar.Binary
import Verif.Polar.BinaryCases
import Verif.Seismic.BinaryScan
import Verif.Seismic.BinaryScanCases
import Verif.EoS.Expansion
import Verif.Elastic.Transverse
import Verif.StatMech.Gruneisen
import Verif.Seismic.Convex
import Verif.Elastic.Gradual
import Verif.Seismic.Resolution
import Verif.Polar.Sampling
import Verif.EoS.Stiffer
import Verif.StatMech.Einstein
import Verif.Polar.Across
import Verif.QHA.Tilt
