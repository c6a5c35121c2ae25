import Verif.Model.ExampleRotations.Rotation

/-!
# The data of the example rotations

Generated by `tools/rotations.py` from `example_rotations/*/*_data.py`.
-/

namespace Ama.ExampleRotations

/-- example_rotations/tank/war_data.py:6-132 -/
def war : List (String × Dict ℕ RotationData) := [
    ("WAR", [
      (90, {
        stats := {
          wd := 132, mainStat := 3330, detStat := 2182, critStat := 2596, dhStat := 940, speedStat := 400,
          tenacity := some 601, jobClass := "WAR" },
        skills := [
          "Tomahawk", "Infuriate", "Heavy Swing", "Maim", "Grade 8 Tincture", "Storm's Eye", "Inner Release",
          "Inner Chaos", "Upheaval", "Onslaught", "Primal Rend", "Inner Chaos", "Onslaught", "Fell Cleave",
          "Onslaught", "Fell Cleave", "Fell Cleave", "Heavy Swing", "Maim", "Storm's Path", "Fell Cleave",
          "Inner Chaos"],
        startVersion := some "6.55" }),
      (100, {
        stats := {
          wd := 146, mainStat := 4839, detStat := 2525, critStat := 3253, dhStat := 1176, speedStat := 420,
          tenacity := some 868, jobClass := "WAR" },
        skills := [
          "Tomahawk", "Infuriate", "Heavy Swing", "Maim", "Storm's Eye", "Inner Release", "Grade 2 Gemdraught",
          "Inner Chaos", "Upheaval", "Onslaught", "Primal Rend", "Onslaught", "Primal Ruination", "Onslaught",
          "Fell Cleave", "Fell Cleave", "Fell Cleave", "Primal Wrath", "Infuriate", "Inner Chaos",
          "Heavy Swing", "Maim", "Storm's Path", "Fell Cleave", "Infuriate", "Inner Chaos"],
        startVersion := some "7.05" })]),
    ("WAR Party Buffs", [
      (90, {
        stats := {
          wd := 132, mainStat := 3330, detStat := 2182, critStat := 2596, dhStat := 940, speedStat := 400,
          tenacity := some 601, jobClass := "WAR" },
        partySkills := some [
          ⟨63/10, "Chain Stratagem", "SCH", none⟩, ⟨71/10, "Battle Litany", "DRG", none⟩,
          ⟨4/5, "Arcane Circle", "RPR", none⟩, ⟨157/25, "Embolden", "RDM", none⟩],
        skills := [
          "Tomahawk", "Infuriate", "Heavy Swing", "Maim", "Grade 8 Tincture", "Storm's Eye", "Inner Release",
          "Inner Chaos", "Upheaval", "Onslaught", "Primal Rend", "Inner Chaos", "Onslaught", "Fell Cleave",
          "Onslaught", "Fell Cleave", "Fell Cleave", "Heavy Swing", "Maim", "Storm's Path", "Fell Cleave",
          "Inner Chaos"],
        startVersion := some "6.55" })])]

/-- example_rotations/tank/pld_data.py:6-80 -/
def pld : List (String × Dict ℕ RotationData) := [
    ("PLD", [
      (90, {
        stats := {
          wd := 132, mainStat := 3311, detStat := 2182, critStat := 2596, dhStat := 940, speedStat := 400,
          tenacity := some 601, jobClass := "PLD" },
        skills := [
          "Holy Spirit", "Fast Blade", "Grade 8 Tincture", "Riot Blade", "Royal Authority", "Fight or Flight",
          "Requiescat", "Goring Blade", "Circle of Scorn", "Expiacion", "Confiteor", "Intervene",
          "Blade of Faith", "Intervene", "Blade of Truth", "Blade of Valor", "Holy Spirit", "Atonement",
          "Atonement", "Atonement"],
        startVersion := some "6.55" }),
      (100, {
        stats := {
          wd := 146, mainStat := 4820, detStat := 2310, critStat := 3174, dhStat := 1470, speedStat := 420,
          tenacity := some 868, jobClass := "PLD" },
        skills := [
          "Holy Spirit", "Fast Blade", "Riot Blade", "Grade 2 Gemdraught", "Royal Authority", "Fight or Flight",
          "Imperator", "Confiteor", "Circle of Scorn", "Expiacion", "Blade of Faith", "Intervene",
          "Blade of Truth", "Intervene", "Blade of Valor", "Blade of Honor", "Goring Blade", "Atonement",
          "Supplication", "Sepulchre", "Holy Spirit"],
        startVersion := some "7.05" })])]

/-- example_rotations/tank/gnb_data.py:6-80 -/
def gnb : List (String × Dict ℕ RotationData) := [
    ("GNB", [
      (90, {
        stats := {
          wd := 132, mainStat := 3311, detStat := 2182, critStat := 2596, dhStat := 940, speedStat := 400,
          tenacity := some 601, jobClass := "GNB" },
        skills := [
          "Keen Edge", "Grade 8 Tincture", "Brutal Shell", "No Mercy", "Bloodfest", "Gnashing Fang",
          "Jugular Rip", "Sonic Break", "Blasting Zone", "Bow Shock", "Double Down", "Rough Divide",
          "Savage Claw", "Abdomen Tear", "Rough Divide", "Wicked Talon", "Eye Gouge", "Solid Barrel",
          "Burst Strike", "Hypervelocity", "Keen Edge"],
        startVersion := some "6.55",
        endVersion := some "6.55" }),
      (100, {
        stats := {
          wd := 146, mainStat := 4820, detStat := 2310, critStat := 3174, dhStat := 1470, speedStat := 420,
          tenacity := some 868, jobClass := "GNB" },
        skills := [
          "Lightning Shot", "Bloodfest", "Keen Edge", "Grade 2 Gemdraught", "Brutal Shell", "No Mercy",
          "Sonic Break", "Bow Shock", "Double Down", "Blasting Zone", "Gnashing Fang", "Jugular Rip",
          "Savage Claw", "Abdomen Tear", "Wicked Talon", "Eye Gouge", "Reign of Beasts", "Noble Blood",
          "Lion Heart"],
        startVersion := some "7.05" })])]

/-- example_rotations/tank/drk_data.py:6-91 -/
def drk : List (String × Dict ℕ RotationData) := [
    ("DRK", [
      (90, {
        stats := {
          wd := 132, mainStat := 3311, detStat := 2182, critStat := 2596, dhStat := 940, speedStat := 400,
          tenacity := some 601, jobClass := "DRK" },
        skills := [
          "Grade 8 Tincture", "Hard Slash", "Edge of Shadow", "Syphon Strike", "Delirium", "Souleater",
          "Living Shadow", "Hard Slash", "Salted Earth", "Edge of Shadow", "Bloodspiller", "Shadowbringer",
          "Edge of Shadow", "Bloodspiller", "Carve and Spit", "Plunge", "Bloodspiller", "Shadowbringer",
          "Edge of Shadow", "Syphon Strike", "Salt and Darkness", "Edge of Shadow", "Souleater", "Plunge",
          "Hard Slash", "Syphon Strike", "Edge of Shadow", "Souleater", "Bloodspiller"],
        startVersion := some "6.55",
        endVersion := some "6.55" }),
      (100, {
        stats := {
          wd := 146, mainStat := 4839, detStat := 2310, critStat := 3174, dhStat := 1470, speedStat := 420,
          tenacity := some 868, jobClass := "DRK" },
        skills := [
          "Unmend", "Grade 2 Gemdraught", "Hard Slash", "Edge of Shadow", "Living Shadow", "Syphon Strike",
          "Souleater", "Delirium", "Disesteem", "Salted Earth", "Edge of Shadow", "Scarlet Delirium",
          "Shadowbringer", "Edge of Shadow", "Comeuppance", "Carve and Spit", "Edge of Shadow", "Torcleaver",
          "Shadowbringer", "Edge of Shadow", "Bloodspiller", "Salt and Darkness"],
        startVersion := some "7.05" })])]

/-- example_rotations/healer/whm_data.py:6-73 -/
def whm : List (String × Dict ℕ RotationData) := [
    ("WHM", [
      (90, {
        stats := {
          wd := 132, mainStat := 3369, detStat := 1941, critStat := 2502, dhStat := 580, speedStat := 1296,
          jobClass := "WHM" },
        skills := [
          "Grade 8 Tincture", "Glare III", "Dia", "Glare III", "Glare III", "Presence of Mind", "Glare III",
          "Assize", "Glare III", "Glare III", "Glare III", "Glare III", "Glare III", "Glare III", "Glare III",
          "Glare III", "Glare III", "Glare III"],
        startVersion := some "6.55",
        endVersion := some "6.55" }),
      (100, {
        stats := {
          wd := 146, mainStat := 4883, detStat := 2831, critStat := 3041, dhStat := 906, speedStat := 528,
          jobClass := "WHM" },
        skills := [
          "Glare III", "Grade 2 Gemdraught", "Dia", "Glare III", "Glare III", "Presence of Mind", "Glare IV",
          "Assize", "Glare IV", "Glare III", "Glare III", "Glare III", "Glare III", "Glare III", "Glare III",
          "Glare IV", "Dia"],
        startVersion := some "7.05" })])]

/-- example_rotations/healer/sge_data.py:5-69 -/
def sge : List (String × Dict ℕ RotationData) := [
    ("SGE", [
      (90, {
        stats := {
          wd := 132, mainStat := 3369, detStat := 1941, critStat := 2502, dhStat := 580, speedStat := 1296,
          jobClass := "SGE" },
        skills := [
          "Grade 8 Tincture", "Dosis III", "Eukrasia", "Eukrasian Dosis III", "Dosis III", "Dosis III",
          "Phlegma III", "Phlegma III", "Dosis III", "Dosis III", "Dosis III", "Dosis III", "Dosis III"],
        startVersion := some "6.55",
        endVersion := some "6.55" }),
      (100, {
        stats := {
          wd := 146, mainStat := 4883, detStat := 2831, critStat := 3041, dhStat := 1014, speedStat := 420,
          jobClass := "SGE" },
        skills := [
          "Eukrasia", "Grade 2 Gemdraught", "Toxikon II", "Eukrasian Dosis III", "Dosis III", "Dosis III",
          "Dosis III", "Phlegma III", "Psyche", "Phlegma III", "Dosis III", "Dosis III", "Dosis III",
          "Dosis III", "Eukrasia", "Eukrasian Dosis III", "Dosis III", "Dosis III", "Dosis III"],
        startVersion := some "7.05" })])]

/-- example_rotations/healer/sch_data.py:5-83 -/
def sch : List (String × Dict ℕ RotationData) := [
    ("SCH", [
      (90, {
        stats := {
          wd := 132, mainStat := 3369, detStat := 2087, critStat := 2454, dhStat := 832, speedStat := 946,
          jobClass := "SCH" },
        skills := [
          "Grade 8 Tincture", "Broil IV", "Biolysis", "Aetherflow", "Broil IV", "Broil IV", "Chain Stratagem",
          "Broil IV", "Energy Drain", "Broil IV", "Energy Drain", "Broil IV", "Energy Drain", "Broil IV",
          "Broil IV", "Energy Drain", "Broil IV", "Energy Drain", "Broil IV", "Energy Drain", "Broil IV",
          "Broil IV", "Broil IV"],
        startVersion := some "6.55",
        endVersion := some "6.55" }),
      (100, {
        stats := {
          wd := 146, mainStat := 4883, detStat := 2831, critStat := 3041, dhStat := 1014, speedStat := 420,
          jobClass := "SCH" },
        skills := [
          "Broil IV", "Grade 2 Gemdraught", "Biolysis", "Dissipation", "Broil IV", "Chain Stratagem",
          "Broil IV", "Energy Drain", "Broil IV", "Energy Drain", "Broil IV", "Energy Drain", "Broil IV",
          "Aetherflow", "Broil IV", "Baneful Impaction", "Broil IV", "Energy Drain", "Broil IV", "Energy Drain",
          "Broil IV", "Energy Drain", "Biolysis"],
        startVersion := some "7.05" })])]

/-- example_rotations/healer/ast_data.py:5-44 -/
def ast : List (String × Dict ℕ RotationData) := [
    ("AST", [
      (100, {
        stats := {
          wd := 146, mainStat := 4883, detStat := 2831, critStat := 3041, dhStat := 906, speedStat := 528,
          jobClass := "AST" },
        skills := [
          "Earthly Star", "Fall Malefic", "Grade 2 Gemdraught", "Combust III", "Lightspeed", "Fall Malefic",
          "Fall Malefic", "Divination", "the Balance", "Fall Malefic", "Lord of Crowns", "Umbral Draw",
          "Fall Malefic", "the Spear", "Oracle", "Fall Malefic", "Fall Malefic", "Fall Malefic", "Fall Malefic",
          "Fall Malefic", "Combust III", "Fall Malefic"],
        startVersion := some "7.05" })])]

/-- example_rotations/ranged/brd_data.py:6-81 -/
def brd : List (String × Dict ℕ RotationData) := [
    ("BRD", [
      (90, {
        stats := {
          wd := 132, mainStat := 3379, detStat := 1885, critStat := 2598, dhStat := 1344, speedStat := 479,
          jobClass := "BRD" },
        skills := [
          "Grade 8 Tincture", "Stormbite", "The Wanderer's Minuet", "Raging Strikes", "Caustic Bite",
          "Empyreal Arrow", "Bloodletter", "Refulgent Arrow", "Radiant Finale", "Battle Voice",
          "Refulgent Arrow", "Sidewinder", "Refulgent Arrow", "Barrage", "Refulgent Arrow", "Burst Shot",
          "Refulgent Arrow", "Empyreal Arrow", "Iron Jaws", "Pitch Perfect"],
        startVersion := some "6.55" }),
      (100, {
        stats := {
          wd := 146, mainStat := 4886, detStat := 2091, critStat := 3177, dhStat := 2080, speedStat := 474,
          jobClass := "BRD" },
        skills := [
          "Stormbite", "The Wanderer's Minuet", "Empyreal Arrow", "Caustic Bite", "Wait 0.90s", "Battle Voice",
          "Burst Shot", "Radiant Finale", "Raging Strikes", "Burst Shot", "Heartbreak Shot", "Radiant Encore",
          "Barrage", "Refulgent Arrow", "Sidewinder", "Resonant Arrow", "Empyreal Arrow", "Refulgent Arrow",
          "Burst Shot", "Iron Jaws", "Heartbreak Shot", "Burst Shot", "Pitch Perfect"],
        startVersion := some "7.05" })])]

/-- example_rotations/ranged/dnc_data.py:6-81 -/
def dnc : List (String × Dict ℕ RotationData) := [
    ("DNC", [
      (90, {
        stats := {
          wd := 132, mainStat := 3379, detStat := 1952, critStat := 2557, dhStat := 1380, speedStat := 436,
          jobClass := "DNC" },
        skills := [
          "Grade 8 Tincture", "Technical Step", "Step Action", "Step Action", "Step Action", "Step Action",
          "Quadruple Technical Finish", "Devilment", "Starfall Dance", "Flourish", "Fan Dance III", "Tillana",
          "Fan Dance IV", "Fountainfall", "Fan Dance", "Fan Dance III", "Standard Step", "Step Action",
          "Step Action", "Double Standard Finish"],
        startVersion := some "6.55" }),
      (100, {
        stats := {
          wd := 146, mainStat := 4886, detStat := 2091, critStat := 3177, dhStat := 2134, speedStat := 420,
          jobClass := "DNC" },
        skills := [
          "Standard Step", "Step Action", "Step Action", "Grade 2 Gemdraught", "Double Standard Finish",
          "Technical Step", "Step Action", "Step Action", "Step Action", "Step Action",
          "Quadruple Technical Finish", "Devilment", "Tillana", "Flourish", "Dance of the Dawn", "Fan Dance IV",
          "Last Dance", "Fan Dance III", "Finishing Move", "Starfall Dance", "Fountainfall", "Reverse Cascade",
          "Fountainfall", "Reverse Cascade"],
        startVersion := some "7.05" })])]

/-- example_rotations/ranged/mch_data.py:6-103 -/
def mch : List (String × Dict ℕ RotationData) := [
    ("MCH", [
      (90, {
        stats := {
          wd := 132, mainStat := 3376, detStat := 2114, critStat := 2557, dhStat := 1254, speedStat := 400,
          jobClass := "MCH" },
        skills := [
          "Grade 8 Tincture", "Heated Split Shot", "Gauss Round", "Ricochet", "Drill", "Barrel Stabilizer",
          "Heated Slug Shot", "Ricochet", "Heated Clean Shot", "Reassemble", "Gauss Round", "Air Anchor",
          "Reassemble", "Wildfire", "Chain Saw", "Automaton Queen", "Hypercharge", "Heat Blast", "Ricochet",
          "Heat Blast", "Gauss Round", "Heat Blast", "Ricochet", "Heat Blast", "Gauss Round", "Heat Blast",
          "Ricochet", "Drill", "Ricochet", "Heated Split Shot", "Heated Slug Shot", "Heated Clean Shot"],
        startVersion := some "6.55" }),
      (100, {
        stats := {
          wd := 146, mainStat := 4883, detStat := 2091, critStat := 3177, dhStat := 2134, speedStat := 420,
          jobClass := "MCH" },
        skills := [
          "Reassemble", "Grade 2 Gemdraught", "Air Anchor", "Checkmate", "Double Check", "Drill",
          "Barrel Stabilizer", "Chain Saw", "Excavator", "Automaton Queen", "Reassemble", "Drill", "Checkmate",
          "Wildfire", "Full Metal Field", "Double Check", "Hypercharge", "Blazing Shot", "Checkmate",
          "Blazing Shot", "Double Check", "Blazing Shot", "Checkmate", "Blazing Shot", "Double Check",
          "Blazing Shot", "Checkmate", "Drill", "Double Check", "Checkmate", "Heated Split Shot",
          "Double Check", "Heated Slug Shot", "Heated Clean Shot"],
        startVersion := some "7.05" })])]

/-- example_rotations/caster/blm_data.py:6-86 -/
def blm : List (String × Dict ℕ RotationData) := [
    ("BLM", [
      (90, {
        stats := {
          wd := 132, mainStat := 3375, detStat := 1764, critStat := 545, dhStat := 1547, speedStat := 2469,
          jobClass := "BLM" },
        skills := [
          "Sharpcast", "Fire III", "Thunder III", "Triplecast", "Fire IV", "Grade 8 Tincture", "Fire IV",
          "Amplifier", "Ley Lines", "Fire IV", "Swiftcast", "Fire IV", "Triplecast", "Despair", "Manafont",
          "Fire IV", "Sharpcast", "Despair", "Blizzard III", "Xenoglossy", "Paradox", "Blizzard IV",
          "Thunder III"],
        startVersion := some "6.55",
        endVersion := some "6.55" }),
      (100, {
        stats := {
          wd := 146, mainStat := 4882, detStat := 1572, critStat := 3321, dhStat := 1882, speedStat := 1047,
          jobClass := "BLM" },
        skills := [
          "Fire III", "High Thunder", "Swiftcast", "Amplifier", "Fire IV", "Grade 2 Gemdraught", "Fire IV",
          "Xenoglossy", "Triplecast", "Ley Lines", "Fire IV", "Fire IV", "Despair", "Manafont", "Triplecast",
          "Fire IV", "Fire IV", "Flare Star", "Fire IV", "High Thunder", "Paradox", "Fire IV", "Fire IV",
          "Fire IV", "Despair"],
        startVersion := some "7.05" })])]

/-- example_rotations/caster/pct_data.py:6-116 -/
def pct : List (String × Dict ℕ RotationData) := [
    ("PCT", [
      (90, {
        stats := {
          wd := 146, mainStat := 4883, detStat := 2269, critStat := 3140, dhStat := 1993, speedStat := 420,
          jobClass := "PCT" },
        skills := [
          "Striking Muse", "Holy in White", "Grade 2 Gemdraught", "Pom Muse", "Wing Motif", "Starry Muse",
          "Hammer Stamp", "Subtractive Palette", "Blizzard in Cyan", "Stone in Yellow", "Thunder in Magenta",
          "Comet in Black", "Winged Muse", "Mog of the Ages", "Hammer Brush", "Polishing Hammer",
          "Holy in White"],
        startVersion := some "7.05" }),
      (100, {
        stats := {
          wd := 146, mainStat := 4883, detStat := 2269, critStat := 3140, dhStat := 1993, speedStat := 420,
          jobClass := "PCT" },
        skills := [
          "Rainbow Drip", "Striking Muse", "Holy in White", "Grade 2 Gemdraught", "Pom Muse", "Wing Motif",
          "Starry Muse", "Hammer Stamp", "Subtractive Palette", "Blizzard in Cyan", "Stone in Yellow",
          "Thunder in Magenta", "Comet in Black", "Winged Muse", "Mog of the Ages", "Star Prism",
          "Hammer Brush", "Polishing Hammer", "Rainbow Drip", "Holy in White", "Swiftcast", "Claw Motif",
          "Clawed Muse"],
        startVersion := some "7.05" })]),
    ("PCT 7.0", [
      (100, {
        stats := {
          wd := 132, mainStat := 3379, detStat := 1871, critStat := 2514, dhStat := 1438, speedStat := 502,
          jobClass := "PCT" },
        skills := [
          "Rainbow Drip", "Striking Muse", "Holy in White", "Grade 2 Gemdraught", "Pom Muse", "Wing Motif",
          "Starry Muse", "Hammer Stamp", "Subtractive Palette", "Blizzard in Cyan", "Stone in Yellow",
          "Thunder in Magenta", "Comet in Black", "Winged Muse", "Mog of the Ages", "Star Prism",
          "Hammer Brush", "Polishing Hammer", "Rainbow Drip", "Holy in White", "Swiftcast", "Claw Motif",
          "Clawed Muse"],
        startVersion := some "7.05" })])]

/-- example_rotations/caster/rdm_data.py:6-103 -/
def rdm : List (String × Dict ℕ RotationData) := [
    ("RDM", [
      (90, {
        stats := {
          wd := 132, mainStat := 3379, detStat := 1601, critStat := 2514, dhStat := 1708, speedStat := 502,
          jobClass := "RDM" },
        skills := [
          "Verthunder III", "Veraero III", "Swiftcast", "Acceleration", "Verthunder III", "Grade 8 Tincture",
          "Verthunder III", "Embolden", "Manafication", "Enchanted Riposte", "Fleche", "Enchanted Zwerchhau",
          "Contre Sixte", "Enchanted Redoublement", "Corps-a-corps", "Engagement", "Verholy", "Corps-a-corps",
          "Engagement", "Scorch", "Resolution", "Verfire", "Verthunder III", "Verstone", "Veraero III",
          "Jolt II", "Verthunder III", "Fleche"],
        startVersion := some "6.55",
        endVersion := some "6.55" }),
      (100, {
        stats := {
          wd := 146, mainStat := 4883, detStat := 2108, critStat := 3061, dhStat := 2125, speedStat := 528,
          jobClass := "RDM" },
        skills := [
          "Veraero III", "Verthunder III", "Swiftcast", "Grade 2 Gemdraught", "Verthunder III", "Fleche",
          "Acceleration", "Verthunder III", "Embolden", "Manafication", "Enchanted Riposte", "Contre Sixte",
          "Enchanted Zwerchhau", "Engagement", "Enchanted Redoublement", "Corps-a-corps", "Verholy",
          "Vice of Thorns", "Scorch", "Engagement", "Corps-a-corps", "Resolution", "Prefulgence",
          "Grand Impact", "Acceleration", "Verfire", "Grand Impact", "Verthunder III", "Fleche", "Veraero III",
          "Verfire", "Verthunder III", "Verstone", "Veraero III", "Swiftcast", "Veraero III", "Contre Sixte"],
        startVersion := some "7.05" })])]

/-- example_rotations/caster/smn_data.py:6-89 -/
def smn : List (String × Dict ℕ RotationData) := [
    ("SMN", [
      (90, {
        stats := {
          wd := 132, mainStat := 3379, detStat := 1871, critStat := 2514, dhStat := 1438, speedStat := 502,
          jobClass := "SMN" },
        skills := [
          "Ruin III", "Summon Bahamut", "Searing Light", "Astral Impulse", "Grade 8 Tincture", "Astral Impulse",
          "Astral Impulse", "Energy Drain", "Enkindle Bahamut", "Astral Impulse", "Deathflare", "Fester",
          "Astral Impulse", "Fester", "Astral Impulse", "Summon Garuda II", "Swiftcast", "Slipstream",
          "Emerald Rite", "Emerald Rite", "Emerald Rite", "Emerald Rite", "Summon Titan II"],
        startVersion := some "6.55",
        endVersion := some "6.55" }),
      (100, {
        stats := {
          wd := 146, mainStat := 4883, detStat := 2108, critStat := 3061, dhStat := 2125, speedStat := 528,
          jobClass := "SMN" },
        skills := [
          "Ruin III", "Summon Solar Bahamut", "Grade 2 Gemdraught", "Umbral Impulse", "Searing Light",
          "Umbral Impulse", "Umbral Impulse", "Energy Drain", "Umbral Impulse", "Exodus", "Necrotize",
          "Umbral Impulse", "Sunflare", "Necrotize", "Umbral Impulse", "Searing Flash", "Summon Titan II",
          "Topaz Rite", "Mountain Buster", "Topaz Rite", "Mountain Buster", "Topaz Rite", "Mountain Buster",
          "Topaz Rite", "Mountain Buster", "Summon Garuda II", "Swiftcast", "Slipstream"],
        startVersion := some "7.05" })])]

/-- example_rotations/melee/drg_data.py:6-92 -/
def drg : List (String × Dict ℕ RotationData) := [
    ("DRG", [
      (90, {
        stats := {
          wd := 132, mainStat := 3379, detStat := 1818, critStat := 2567, dhStat := 1818, speedStat := 400,
          jobClass := "DRG" },
        skills := [
          "True Thrust", "Grade 8 Tincture", "Disembowel", "Lance Charge", "Dragon Sight", "Chaotic Spring",
          "Battle Litany", "Wheeling Thrust", "Geirskogul", "Life Surge", "Fang and Claw", "High Jump",
          "Mirage Dive", "Raiden Thrust", "Dragonfire Dive", "Vorpal Thrust", "Spineshatter Dive", "Life Surge",
          "Heavens' Thrust", "Fang and Claw", "Wheeling Thrust", "Raiden Thrust", "Wyrmwind Thrust",
          "Disembowel", "Chaotic Spring", "Wheeling Thrust"],
        startVersion := some "6.55",
        endVersion := some "6.55" }),
      (100, {
        stats := {
          wd := 146, mainStat := 4883, detStat := 2150, critStat := 3120, dhStat := 2132, speedStat := 420,
          jobClass := "DRG" },
        skills := [
          "True Thrust", "Spiral Blow", "Lance Charge", "Grade 2 Gemdraught", "Chaotic Spring", "Battle Litany",
          "Geirskogul", "Wheeling Thrust", "High Jump", "Life Surge", "Drakesbane", "Dragonfire Dive",
          "Nastrond", "Raiden Thrust", "Stardiver", "Lance Barrage", "Starcross", "Life Surge",
          "Heavens' Thrust", "Nastrond", "Rise of the Dragon", "Fang and Claw", "Nastrond", "Mirage Dive",
          "Drakesbane", "Raiden Thrust", "Wyrmwind Thrust", "Spiral Blow"],
        startVersion := some "7.05" })])]

/-- example_rotations/melee/mnk_data.py:6-80 -/
def mnk : List (String × Dict ℕ RotationData) := [
    ("MNK", [
      (90, {
        stats := {
          wd := 132, mainStat := 3356, detStat := 1453, critStat := 2647, dhStat := 1453, speedStat := 771,
          jobClass := "MNK" },
        skills := [
          "Form Shift", "Dragon Kick", "Grade 8 Tincture", "Twin Snakes", "Riddle of Fire", "Demolish",
          "The Forbidden Chakra", "Bootshine", "Brotherhood", "Perfect Balance", "Dragon Kick",
          "Riddle of Wind", "Bootshine", "Dragon Kick", "Elixir Field", "Bootshine", "Perfect Balance",
          "Twin Snakes", "Dragon Kick", "Demolish", "Rising Phoenix"],
        startVersion := some "6.55",
        endVersion := some "6.55" }),
      (100, {
        stats := {
          wd := 146, mainStat := 4861, detStat := 2071, critStat := 3156, dhStat := 1639, speedStat := 956,
          jobClass := "MNK" },
        skills := [
          "Dragon Kick", "Perfect Balance", "Grade 2 Gemdraught", "Leaping Opo", "Dragon Kick", "Brotherhood",
          "Riddle of Fire", "Leaping Opo", "The Forbidden Chakra", "Riddle of Wind", "Elixir Burst",
          "Dragon Kick", "Wind's Reply", "Fire's Reply", "Leaping Opo", "Perfect Balance", "Dragon Kick",
          "Leaping Opo", "Dragon Kick", "Elixir Burst", "Leaping Opo"],
        startVersion := some "7.05" })])]

/-- example_rotations/melee/nin_data.py:6-98 -/
def nin : List (String × Dict ℕ RotationData) := [
    ("NIN", [
      (90, {
        stats := {
          wd := 132, mainStat := 3360, detStat := 1697, critStat := 2554, dhStat := 1582, speedStat := 400,
          jobClass := "NIN" },
        skills := [
          "Huton", "Hide", "Suiton", "Kassatsu", "Spinning Edge", "Grade 8 Tincture", "Gust Slash", "Mug",
          "Bunshin", "Phantom Kamaitachi", "Trick Attack", "Aeolian Edge", "Dream Within a Dream", "Ten", "Jin",
          "Hyosho Ranryu", "Ten", "Chi", "Raiton", "Ten Chi Jin", "Fuma Shuriken", "Raiton", "Suiton", "Meisui",
          "Forked Raiju", "Bhavacakra", "Forked Raiju", "Bhavacakra", "Ten", "Chi", "Raiton", "Forked Raiju"],
        startVersion := some "6.55",
        endVersion := some "6.55" }),
      (100, {
        stats := {
          wd := 146, mainStat := 4861, detStat := 2387, critStat := 3173, dhStat := 1842, speedStat := 420,
          jobClass := "NIN" },
        skills := [
          "Ten", "Chi", "Jin", "Suiton", "Kassatsu", "Spinning Edge", "Grade 2 Gemdraught", "Gust Slash",
          "Dokumori", "Bunshin", "Phantom Kamaitachi", "Armor Crush", "Kunai's Bane", "Hyosho Ranryu",
          "Dream Within a Dream", "Raiton", "Ten Chi Jin", "Fuma Shuriken", "Raiton", "Suiton", "Meisui",
          "Fleeting Raiju", "Zesho Meppo", "Tenri Jindo", "Fleeting Raiju", "Bhavacakra", "Raiton",
          "Fleeting Raiju"],
        startVersion := some "7.05" })])]

/-- example_rotations/melee/rpr_data.py:6-82 -/
def rpr : List (String × Dict ℕ RotationData) := [
    ("RPR", [
      (90, {
        stats := {
          wd := 132, mainStat := 3379, detStat := 1764, critStat := 2567, dhStat := 1558, speedStat := 436,
          jobClass := "RPR" },
        skills := [
          "Harpe", "Shadow of Death", "Grade 8 Tincture", "Soul Slice", "Arcane Circle", "Gluttony", "Gibbet",
          "Gallows", "Plentiful Harvest", "Enshroud", "Void Reaping", "Cross Reaping", "Lemure's Slice",
          "Void Reaping", "Cross Reaping", "Lemure's Slice", "Communio", "Soul Slice", "Unveiled Gibbet",
          "Gibbet"],
        startVersion := some "6.55",
        endVersion := some "6.55" }),
      (100, {
        stats := {
          wd := 146, mainStat := 4883, detStat := 2150, critStat := 3120, dhStat := 2078, speedStat := 474,
          jobClass := "RPR" },
        skills := [
          "Harpe", "Shadow of Death", "Grade 2 Gemdraught", "Soul Slice", "Arcane Circle", "Gluttony",
          "Executioner's Gibbet", "Executioner's Gallows", "Soul Slice", "Plentiful Harvest", "Enshroud",
          "Void Reaping", "Sacrificium", "Cross Reaping", "Lemure's Slice", "Void Reaping", "Cross Reaping",
          "Lemure's Slice", "Communio", "Perfectio", "Unveiled Gibbet", "Gibbet", "Shadow of Death", "Slice"],
        startVersion := some "7.05" })])]

/-- example_rotations/melee/sam_data.py:6-90 -/
def sam : List (String × Dict ℕ RotationData) := [
    ("SAM", [
      (90, {
        stats := {
          wd := 132, mainStat := 3367, detStat := 1736, critStat := 2587, dhStat := 1494, speedStat := 508,
          jobClass := "SAM" },
        skills := [
          "Meikyo Shisui", "True North", "Gekko", "Grade 8 Tincture", "Kasha", "Yukikaze", "Midare Setsugekka",
          "Hissatsu: Senei", "Kaeshi: Setsugekka", "Meikyo Shisui", "Gekko", "Hissatsu: Shinten", "Higanbana",
          "Hissatsu: Shinten", "Ogi Namikiri", "Shoha", "Kaeshi: Namikiri", "Kasha", "Hissatsu: Shinten",
          "Gekko", "Hissatsu: Gyoten", "Hakaze", "Hissatsu: Shinten", "Yukikaze", "Midare Setsugekka",
          "Kaeshi: Setsugekka"],
        startVersion := some "6.55",
        endVersion := some "6.55" }),
      (100, {
        stats := {
          wd := 146, mainStat := 4869, detStat := 2093, critStat := 3103, dhStat := 1933, speedStat := 693,
          jobClass := "SAM" },
        skills := [
          "Meikyo Shisui", "True North", "Gekko", "Grade 2 Gemdraught", "Kasha", "Ikishoten", "Yukikaze",
          "Tendo Setsugekka", "Hissatsu: Senei", "Tendo Kaeshi Setsugekka", "Meikyo Shisui", "Gekko", "Zanshin",
          "Higanbana", "Ogi Namikiri", "Shoha", "Kaeshi: Namikiri", "Kasha", "Hissatsu: Shinten", "Gekko",
          "Hissatsu: Gyoten", "Gyofu", "Yukikaze", "Hissatsu: Shinten", "Tendo Setsugekka",
          "Tendo Kaeshi Setsugekka"],
        startVersion := some "7.05" })])]

/-- example_rotations/melee/vpr_data.py:6-163 -/
def vpr : List (String × Dict ℕ RotationData) := [
    ("VPR", [
      (90, {
        stats := {
          wd := 146, mainStat := 4861, detStat := 2387, critStat := 3173, dhStat := 1842, speedStat := 420,
          jobClass := "VPR" },
        skills := [
          "Slither", "Steel Fangs", "Serpent's Ire", "Swiftskin's Sting", "Vicewinder", "Grade 2 Gemdraught",
          "Hunter's Coil", "Twinfang Bite", "Twinblood Bite", "Swiftskin's Coil", "Twinblood Bite",
          "Twinfang Bite", "Reawaken", "First Generation", "Second Generation", "Third Generation",
          "Fourth Generation", "Uncoiled Fury", "Uncoiled Fury", "Hindsting Strike", "Death Rattle",
          "Vicewinder", "Uncoiled Fury", "Hunter's Coil", "Twinfang Bite", "Twinblood Bite", "Swiftskin's Coil",
          "Twinfang Bite", "Twinblood Bite"],
        startVersion := some "7.05" }),
      (100, {
        stats := {
          wd := 146, mainStat := 4861, detStat := 2387, critStat := 3173, dhStat := 1842, speedStat := 420,
          jobClass := "VPR" },
        skills := [
          "Slither", "Steel Fangs", "Serpent's Ire", "Swiftskin's Sting", "Vicewinder", "Grade 2 Gemdraught",
          "Hunter's Coil", "Twinfang Bite", "Twinblood Bite", "Swiftskin's Coil", "Twinblood Bite",
          "Twinfang Bite", "Reawaken", "First Generation", "First Legacy", "Second Generation", "Second Legacy",
          "Third Generation", "Third Legacy", "Fourth Generation", "Fourth Legacy", "Ouroboros",
          "Uncoiled Fury", "Uncoiled Twinfang", "Uncoiled Twinblood", "Uncoiled Fury", "Uncoiled Twinfang",
          "Uncoiled Twinblood", "Hindsting Strike", "Death Rattle", "Vicewinder", "Uncoiled Fury",
          "Uncoiled Twinfang", "Uncoiled Twinblood", "Hunter's Coil", "Twinfang Bite", "Twinblood Bite",
          "Swiftskin's Coil", "Twinfang Bite", "Twinblood Bite"],
        startVersion := some "7.05" })]),
    ("VPR 7.0", [
      (100, {
        stats := {
          wd := 146, mainStat := 4861, detStat := 2387, critStat := 3173, dhStat := 1842, speedStat := 420,
          jobClass := "VPR" },
        skills := [
          "Slither", "Steel Fangs", "Serpent's Ire", "Swiftskin's Sting", "Vicewinder", "Grade 2 Gemdraught",
          "Hunter's Coil", "Twinfang Bite", "Twinblood Bite", "Swiftskin's Coil", "Twinblood Bite",
          "Twinfang Bite", "Reawaken", "First Generation", "First Legacy", "Second Generation", "Second Legacy",
          "Third Generation", "Third Legacy", "Fourth Generation", "Fourth Legacy", "Ouroboros",
          "Uncoiled Fury", "Uncoiled Twinfang", "Uncoiled Twinblood", "Uncoiled Fury", "Uncoiled Twinfang",
          "Uncoiled Twinblood", "Hindsting Strike", "Death Rattle", "Vicewinder", "Uncoiled Fury",
          "Uncoiled Twinfang", "Uncoiled Twinblood", "Hunter's Coil", "Twinfang Bite", "Twinblood Bite",
          "Swiftskin's Coil", "Twinfang Bite", "Twinblood Bite"],
        startVersion := some "7.05" })])]

end Ama.ExampleRotations
