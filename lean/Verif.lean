import Verif.Props.Conditions
import Verif.Props.StatusEffects
import Verif.Props.Formulas
import Verif.Props.HitDamage
import Verif.Props.Dropoff
import Verif.Props.GaugeValue
import Verif.Props.SampleMean
import Verif.Props.SampleDeviation
import Verif.Props.AnotherTime
import Verif.Props.AnotherTimeDamage
import Verif.Props.Extending
import Verif.Props.Gauges
import Verif.Props.Combos
import Verif.Props.Channeling
import Verif.Props.Events
import Verif.Props.Rotation
import Verif.Props.Dots
import Verif.Props.Timeline
import Verif.Props.Damage
import Verif.Props.Stats
import Verif.Props.BaseDamage
import Verif.Props.Simulation
import Verif.Lemmas.Stronger
import Verif.Props.Stronger
import Verif.Props.Reuse
import Verif.Props.Shift
import Verif.Props.KillTime
import Verif.Props.RotationAnalysis
import Verif.Props.Versions
import Verif.Props.Positional
import Verif.Props.Potency
import Verif.Props.Library
import Verif.Props.Import
import Verif.Props.DamageEffects
import Verif.Props.DamageUses
import Verif.Props.DamageConditions
import Verif.Props.Autos
import Verif.Props.Presses
import Verif.Props.Links
import Verif.Props.Rename
import Verif.Props.RenameRotation
import Verif.Props.RenameShipped
import Verif.Props.Repeat
import Verif.Spec.GameData
import Verif.Lemmas.GameData.Drk
import Verif.Lemmas.GameData.Gnb
import Verif.Lemmas.GameData.Pld
import Verif.Lemmas.GameData.War
import Verif.Lemmas.GameData.Ast
import Verif.Lemmas.GameData.Sch
import Verif.Lemmas.GameData.Sge
import Verif.Lemmas.GameData.Whm
import Verif.Lemmas.GameData.Brd
import Verif.Lemmas.GameData.Dnc
import Verif.Lemmas.GameData.Mch
import Verif.Lemmas.GameData.Blm
import Verif.Lemmas.GameData.Pct
import Verif.Lemmas.GameData.Rdm
import Verif.Lemmas.GameData.Smn
import Verif.Lemmas.GameData.Drg
import Verif.Lemmas.GameData.Mnk
import Verif.Lemmas.GameData.Nin
import Verif.Lemmas.GameData.Rpr
import Verif.Lemmas.GameData.Sam
import Verif.Lemmas.GameData.Vpr
import Verif.Lemmas.GameData.Check
import Verif.Lemmas.GameData.Env
import Verif.Lemmas.Tables
import Verif.Lemmas.LibraryRuns
import Verif.Lemmas.GameData.Sound
import Verif.Lemmas.GameData.Create
import Verif.Lemmas.GameData.Generics
import Verif.Lemmas.GameData.Checks.Ast
import Verif.Lemmas.GameData.Checks.Blm
import Verif.Lemmas.GameData.Checks.Brd
import Verif.Lemmas.GameData.Checks.Dnc
import Verif.Lemmas.GameData.Checks.Drg
import Verif.Lemmas.GameData.Checks.Drk
import Verif.Lemmas.GameData.Checks.Gnb
import Verif.Lemmas.GameData.Checks.Mch
import Verif.Lemmas.GameData.Checks.Mnk
import Verif.Lemmas.GameData.Checks.Nin
import Verif.Lemmas.GameData.Checks.Pct
import Verif.Lemmas.GameData.Checks.Pld
import Verif.Lemmas.GameData.Checks.Rdm
import Verif.Lemmas.GameData.Checks.Rpr
import Verif.Lemmas.GameData.Checks.Sam
import Verif.Lemmas.GameData.Checks.Sch
import Verif.Lemmas.GameData.Checks.Sge
import Verif.Lemmas.GameData.Checks.Smn
import Verif.Lemmas.GameData.Checks.Vpr
import Verif.Lemmas.GameData.Checks.War
import Verif.Lemmas.GameData.Checks.Whm
import Verif.Lemmas.GameData.Shipped
import Verif.Lemmas.GameData.Facts
import Verif.Lemmas.GameData.Sharpcast
import Verif.Props.GameData
import Verif.Spec.Safe
import Verif.Lemmas.TrackerSafe
import Verif.Lemmas.BuilderSafe
import Verif.Lemmas.TimelineSkills
import Verif.Lemmas.AutosSafe
import Verif.Props.Safe
import Verif.Lemmas.GameData.Playable
import Verif.Lemmas.GameData.Guests
import Verif.Props.ShippedSafe
import Verif.Props.Pipeline
import Verif.Spec.Simulate
import Verif.Lemmas.TimelineFlags
import Verif.Lemmas.DamageForced
import Verif.Lemmas.DamageTotal
import Verif.Lemmas.GameData.Simulable
import Verif.Props.Simulate
import Verif.Spec.Locality
import Verif.Spec.Tiers
import Verif.Lemmas.Locality
import Verif.Props.Locality
import Verif.Model.ExampleRotations.Rotation
import Verif.Model.ExampleRotations.Data
import Verif.Model.ExampleRotations.Library
import Verif.Spec.ExampleRotations
import Verif.Lemmas.ExampleRotations.Rows
import Verif.Lemmas.ExampleRotations.Check
import Verif.Lemmas.ExampleRotations.Build
import Verif.Lemmas.ExampleRotations.Sensible
import Verif.Props.ExampleRotations
import Verif.Spec.Later
import Verif.Lemmas.Later
import Verif.Props.Later
import Verif.Spec.Replay
import Verif.Lemmas.Replay
import Verif.Props.Replay
import Verif.Props.ReplayShipped
import Verif.Spec.Gear
import Verif.Lemmas.DamageSane
import Verif.Props.SpeedTier
import Verif.Props.SubstatTiers
import Verif.Spec.Reads
import Verif.Props.Reads
import Verif.Props.Gear
import Verif.Props.GearShipped
import Verif.Props.WholeDamage
