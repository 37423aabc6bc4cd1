import Verif.Model.Pid
import Verif.Model.Scale
import Verif.Model.Timer
/-
The checks of the project's own test suite (firmware/tests/*.c), evaluated on the model.  These are tests of the
translation, not proofs; the suite is compiled for the host, where int has 32 bits, but stays within 16 bits
wherever int is used.  `float_to_fixpt(x)` is written as its value round(64 x).
-/
namespace Verif.Tests

/-! ### tests/test_common.c -/

/-- tests/test_common.c:15 -/
example : sdivRoundUp ck16 10 1 = some 10 := by decide

/-- tests/test_common.c:17 -/
example : sdivRoundUp ck16 10 5 = some 2 := by decide

/-- tests/test_common.c:19 -/
example : sdivRoundUp ck16 10 6 = some 2 := by decide

/-- tests/test_common.c:21 -/
example : sdivRoundUp ck16 10 9 = some 2 := by decide

/-- tests/test_common.c:23 -/
example : sdivRoundUp ck16 10 10 = some 1 := by decide

/-- tests/test_common.c:25 -/
example : sdivRoundUp ck16 (-10) 1 = some (-10) := by decide

/-- tests/test_common.c:27 -/
example : sdivRoundUp ck16 (-10) 5 = some (-2) := by decide

/-- tests/test_common.c:29 -/
example : sdivRoundUp ck16 (-10) 6 = some (-1) := by decide

/-- tests/test_common.c:31 -/
example : sdivRoundUp ck16 (-10) 9 = some (-1) := by decide

/-- tests/test_common.c:33 -/
example : sdivRoundUp ck16 (-10) 10 = some (-1) := by decide

/-- tests/test_common.c:35 -/
example : sdivRoundUp ck16 10 (-1) = some (-10) := by decide

/-- tests/test_common.c:37 -/
example : sdivRoundUp ck16 10 (-5) = some (-2) := by decide

/-- tests/test_common.c:39 -/
example : sdivRoundUp ck16 10 (-6) = some (-1) := by decide

/-- tests/test_common.c:41 -/
example : sdivRoundUp ck16 10 (-9) = some (-1) := by decide

/-- tests/test_common.c:43 -/
example : sdivRoundUp ck16 10 (-10) = some (-1) := by decide

/-- tests/test_common.c:45 -/
example : sdivRoundUp ck16 (-10) (-1) = some 10 := by decide

/-- tests/test_common.c:47 -/
example : sdivRoundUp ck16 (-10) (-5) = some 2 := by decide

/-- tests/test_common.c:49 -/
example : sdivRoundUp ck16 (-10) (-6) = some 2 := by decide

/-- tests/test_common.c:51 -/
example : sdivRoundUp ck16 (-10) (-9) = some 2 := by decide

/-- tests/test_common.c:53 -/
example : sdivRoundUp ck16 (-10) (-10) = some 1 := by decide

/-- tests/test_common.c:59 -/
example : udivRoundUp 65536 10 1 = some 10 := by decide

/-- tests/test_common.c:61 -/
example : udivRoundUp 65536 10 5 = some 2 := by decide

/-- tests/test_common.c:63 -/
example : udivRoundUp 65536 10 6 = some 2 := by decide

/-- tests/test_common.c:65 -/
example : udivRoundUp 65536 10 9 = some 2 := by decide

/-- tests/test_common.c:67 -/
example : udivRoundUp 65536 10 10 = some 1 := by decide

/-- tests/test_common.c:73 -/
example : sdivRound ck16 10 1 = some 10 := by decide

/-- tests/test_common.c:75 -/
example : sdivRound ck16 10 5 = some 2 := by decide

/-- tests/test_common.c:77 -/
example : sdivRound ck16 10 6 = some 2 := by decide

/-- tests/test_common.c:79 -/
example : sdivRound ck16 10 9 = some 1 := by decide

/-- tests/test_common.c:81 -/
example : sdivRound ck16 10 10 = some 1 := by decide

/-- tests/test_common.c:83 -/
example : sdivRound ck16 15 6 = some 3 := by decide

/-- tests/test_common.c:85 -/
example : sdivRound ck16 (-10) 1 = some (-10) := by decide

/-- tests/test_common.c:87 -/
example : sdivRound ck16 (-10) 5 = some (-2) := by decide

/-- tests/test_common.c:89 -/
example : sdivRound ck16 (-10) 6 = some (-2) := by decide

/-- tests/test_common.c:91 -/
example : sdivRound ck16 (-10) 9 = some (-1) := by decide

/-- tests/test_common.c:93 -/
example : sdivRound ck16 (-10) 10 = some (-1) := by decide

/-- tests/test_common.c:95 -/
example : sdivRound ck16 (-15) 6 = some (-3) := by decide

/-- tests/test_common.c:97 -/
example : sdivRound ck16 10 (-1) = some (-10) := by decide

/-- tests/test_common.c:99 -/
example : sdivRound ck16 10 (-5) = some (-2) := by decide

/-- tests/test_common.c:101 -/
example : sdivRound ck16 10 (-6) = some (-2) := by decide

/-- tests/test_common.c:103 -/
example : sdivRound ck16 10 (-9) = some (-1) := by decide

/-- tests/test_common.c:105 -/
example : sdivRound ck16 10 (-10) = some (-1) := by decide

/-- tests/test_common.c:107 -/
example : sdivRound ck16 15 (-6) = some (-3) := by decide

/-- tests/test_common.c:109 -/
example : sdivRound ck16 (-10) (-1) = some 10 := by decide

/-- tests/test_common.c:111 -/
example : sdivRound ck16 (-10) (-5) = some 2 := by decide

/-- tests/test_common.c:113 -/
example : sdivRound ck16 (-10) (-6) = some 2 := by decide

/-- tests/test_common.c:115 -/
example : sdivRound ck16 (-10) (-9) = some 1 := by decide

/-- tests/test_common.c:117 -/
example : sdivRound ck16 (-10) (-10) = some 1 := by decide

/-- tests/test_common.c:119 -/
example : sdivRound ck16 (-15) (-6) = some 3 := by decide

/-- tests/test_common.c:125 -/
example : udivRound 65536 10 1 = some 10 := by decide

/-- tests/test_common.c:127 -/
example : udivRound 65536 10 5 = some 2 := by decide

/-- tests/test_common.c:129 -/
example : udivRound 65536 10 6 = some 2 := by decide

/-- tests/test_common.c:131 -/
example : udivRound 65536 10 9 = some 1 := by decide

/-- tests/test_common.c:133 -/
example : udivRound 65536 10 10 = some 1 := by decide

/-- tests/test_common.c:135 -/
example : udivRound 65536 15 6 = some 3 := by decide

/-- tests/test_common.c:140 -/
example : powInt 0 1 = some 0 := by decide

/-- tests/test_common.c:141 -/
example : powInt 10 0 = some 1 := by decide

/-- tests/test_common.c:142 -/
example : powInt 10 1 = some 10 := by decide

/-- tests/test_common.c:143 -/
example : powInt 10 2 = some 100 := by decide

/-- tests/test_common.c:144 -/
example : powInt 10 3 = some 1000 := by decide

/-- tests/test_common.c:145 -/
example : powInt 10 4 = some 10000 := by decide

/-- tests/test_common.c:146 -/
example : powInt 10 5 = some 100000 := by decide

/-- tests/test_common.c:147 -/
example : powInt (-10) 0 = some 1 := by decide

/-- tests/test_common.c:148 -/
example : powInt (-10) 1 = some (-10) := by decide

/-- tests/test_common.c:149 -/
example : powInt (-10) 2 = some 100 := by decide

/-- tests/test_common.c:150 -/
example : powInt (-10) 3 = some (-1000) := by decide

/-- tests/test_common.c:151 -/
example : powInt (-10) 4 = some 10000 := by decide

/-- tests/test_common.c:152 -/
example : powInt (-10) 5 = some (-100000) := by decide

/-- tests/test_common.c:153 -/
example : powInt 3 0 = some 1 := by decide

/-- tests/test_common.c:154 -/
example : powInt 3 1 = some 3 := by decide

/-- tests/test_common.c:155 -/
example : powInt 3 2 = some 9 := by decide

/-- tests/test_common.c:156 -/
example : powInt 3 3 = some 27 := by decide

/-- tests/test_common.c:157 -/
example : powInt 3 4 = some 81 := by decide

/-- tests/test_common.c:158 -/
example : powInt 3 5 = some 243 := by decide

/-- tests/test_common.c:159 -/
example : powInt (-3) 0 = some 1 := by decide

/-- tests/test_common.c:160 -/
example : powInt (-3) 1 = some (-3) := by decide

/-- tests/test_common.c:161 -/
example : powInt (-3) 2 = some 9 := by decide

/-- tests/test_common.c:162 -/
example : powInt (-3) 3 = some (-27) := by decide

/-- tests/test_common.c:163 -/
example : powInt (-3) 4 = some 81 := by decide

/-- tests/test_common.c:164 -/
example : powInt (-3) 5 = some (-243) := by decide

/-! ### tests/test_fixpt.c (`fixpt_to_float` is not used by the firmware and not modelled) -/

/-- tests/test_fixpt.c:12 -/
example : intToFixpt 1 = some 64 := by decide

/-- tests/test_fixpt.c:13 -/
example : intToFixpt 5 = some 320 := by decide

/-- tests/test_fixpt.c:14 -/
example : intToFixpt 10 = some 640 := by decide

/-- tests/test_fixpt.c:15 -/
example : intToFixpt 1023 = some 65472 := by decide

/-- tests/test_fixpt.c:16 -/
example : intToFixpt (-1) = some (-64) := by decide

/-- tests/test_fixpt.c:17 -/
example : intToFixpt (-99) = some (-6336) := by decide

/-- tests/test_fixpt.c:18 -/
example : intToFixpt (-1023) = some (-65472) := by decide

/-- tests/test_fixpt.c:19 -/
example : fixptToInt 384 = some 6 := by decide

/-- tests/test_fixpt.c:27 -/
example : fixptToInt 346 = some 5 := by decide

/-- tests/test_fixpt.c:28 -/
example : fixptToInt 352 = some 6 := by decide

/-- tests/test_fixpt.c:29 -/
example : fixptToInt 358 = some 6 := by decide

/-- tests/test_fixpt.c:30 -/
example : fixptToInt (-346) = some (-5) := by decide

/-- tests/test_fixpt.c:31 -/
example : fixptToInt (-352) = some (-6) := by decide

/-- tests/test_fixpt.c:32 -/
example : fixptToInt (-358) = some (-6) := by decide

/-- tests/test_fixpt.c:33 -/
example : fixptToInt 26 = some 0 := by decide

/-- tests/test_fixpt.c:34 -/
example : fixptToInt 32 = some 1 := by decide

/-- tests/test_fixpt.c:35 -/
example : fixptToInt 38 = some 1 := by decide

/-- tests/test_fixpt.c:36 -/
example : fixptToInt (-26) = some 0 := by decide

/-- tests/test_fixpt.c:37 -/
example : fixptToInt (-32) = some (-1) := by decide

/-- tests/test_fixpt.c:38 -/
example : fixptToInt (-38) = some (-1) := by decide

/-- tests/test_fixpt.c:42 -/
example : fixptGetIntPart 0 = some 0 := by decide

/-- tests/test_fixpt.c:43 -/
example : fixptGetIntPart 64 = some 1 := by decide

/-- tests/test_fixpt.c:44 -/
example : fixptGetIntPart 96 = some 1 := by decide

/-- tests/test_fixpt.c:45 -/
example : fixptGetIntPart 160 = some 2 := by decide

/-- tests/test_fixpt.c:46 -/
example : fixptGetIntPart (-64) = some (-1) := by decide

/-- tests/test_fixpt.c:47 -/
example : fixptGetIntPart (-96) = some (-1) := by decide

/-- tests/test_fixpt.c:48 -/
example : fixptGetIntPart (-160) = some (-2) := by decide

/-- tests/test_fixpt.c:50 -/
example : fixptGetDecFract 80 2 = some 25 := by decide

/-- tests/test_fixpt.c:51 -/
example : fixptGetDecFract (-80) 2 = some 25 := by decide

/-- tests/test_fixpt.c:52 -/
example : fixptGetDecFract 80 1 = some 3 := by decide

/-- tests/test_fixpt.c:53 -/
example : fixptGetDecFract 78 1 = some 2 := by decide

/-- tests/test_fixpt.c:54 -/
example : fixptGetDecFract (-80) 1 = some 3 := by decide

/-- tests/test_fixpt.c:55 -/
example : fixptGetDecFract (-78) 1 = some 2 := by decide

/-- tests/test_fixpt.c:56 -/
example : fixptGetDecFract 72 1 = some 1 := by decide

/-- tests/test_fixpt.c:57 -/
example : fixptGetDecFract 72 2 = some 13 := by decide

/-- tests/test_fixpt.c:58 -/
example : fixptGetDecFract 72 3 = some 125 := by decide

/-- tests/test_fixpt.c:59 -/
example : fixptGetDecFract (-72) 1 = some 1 := by decide

/-- tests/test_fixpt.c:60 -/
example : fixptGetDecFract (-72) 2 = some 13 := by decide

/-- tests/test_fixpt.c:61 -/
example : fixptGetDecFract (-72) 3 = some 125 := by decide

/-- tests/test_fixpt.c:62 -/
example : fixptGetDecFract 64 2 = some 0 := by decide

/-- tests/test_fixpt.c:63 -/
example : fixptGetDecFract (-64) 2 = some 0 := by decide

/-- tests/test_fixpt.c:64 -/
example : fixptGetDecFract 0 2 = some 0 := by decide

/-! ### tests/test_pid.c -/

/-- `pid_init`, `pid_set_setpoint` and runs of `pid_run` with the given time steps and readings: all outputs -/
def pidTest (k : PidK) (iNeg iPos yNeg yPos w : Int) (rs : List (Int × Int)) : Option (List Int) :=
  let rec go (p : Pid) : List (Int × Int) → Option (List Int)
    | [] => some []
    | (dt, r) :: rs => do
      let (p, y) ← pidRun p dt r
      let ys ← go p rs
      return y :: ys
  go (pidSetSetpoint (pidInit ⟨⟨0, 0, 0, 0⟩, 0, 0, 0, 0, 0, 0, 0⟩ k iNeg iPos yNeg yPos) w) rs

/-- tests/test_pid.c:25 -/
example (p : Pid) : (pidSetSetpoint p 640).setpoint = 640 := rfl

/-- tests/test_pid.c:41-62 -/
example : pidTest ⟨64, 0, 0, 64⟩ (-960) 960 (-960) 960 640
    [(64, 64), (64, 128), (64, 320), (64, 320)] =
    some [576, 512, 320, 320] := by decide

/-- tests/test_pid.c:75-100 -/
example : pidTest ⟨192, 0, 0, 64⟩ (-960) 960 (-960) 960 640
    [(64, 64), (96, 128), (128, 320), (64, 448), (64, 480)] =
    some [960, 960, 960, 576, 480] := by decide

/-- tests/test_pid.c:113-138 -/
example : pidTest ⟨160, 0, 0, 64⟩ (-960) 960 (-960) 960 640
    [(64, 64), (64, 128), (64, 320), (64, 448), (64, 480)] =
    some [960, 960, 800, 480, 400] := by decide

/-- tests/test_pid.c:151-176 -/
example : pidTest ⟨(-160), 0, 0, 64⟩ (-960) 960 (-960) 960 640
    [(64, 64), (64, 128), (64, 320), (64, 448), (64, 480)] =
    some [(-960), (-960), (-800), (-480), (-400)] := by decide

/-- tests/test_pid.c:192-229 -/
example : pidTest ⟨0, 64, 0, 64⟩ (-960) 960 (-960) 960 640
    [(64, 576), (64, 576), (64, 576), (64, 640), (64, 704), (192, 704), (32, 704), (32, 704)] =
    some [64, 128, 192, 192, 128, (-64), (-96), (-128)] := by decide

/-- tests/test_pid.c:242-279 -/
example : pidTest ⟨0, (-64), 0, 64⟩ (-960) 960 (-960) 960 640
    [(64, 576), (64, 576), (64, 576), (64, 640), (64, 704), (192, 704), (32, 704), (32, 704)] =
    some [(-64), (-128), (-192), (-192), (-128), 64, 96, 128] := by decide

/-- tests/test_pid.c:292-329 -/
example : pidTest ⟨0, 96, 0, 64⟩ (-960) 960 (-960) 960 640
    [(64, 576), (64, 576), (64, 576), (64, 640), (64, 704), (192, 704), (32, 704), (32, 704)] =
    some [96, 192, 288, 288, 192, (-96), (-144), (-192)] := by decide

/-- tests/test_pid.c:345-374 -/
example : pidTest ⟨0, 0, 64, 64⟩ (-960) 960 (-960) 960 640
    [(64, 576), (64, 512), (64, 448), (64, 320), (64, 320), (64, 448)] =
    some [64, 64, 64, 128, 0, (-128)] := by decide

/-- tests/test_pid.c:387-416 -/
example : pidTest ⟨0, 0, (-64), 64⟩ (-960) 960 (-960) 960 640
    [(64, 576), (64, 512), (64, 448), (64, 320), (64, 320), (64, 448)] =
    some [(-64), (-64), (-64), (-128), 0, 128] := by decide

/-- tests/test_pid.c:429-458 -/
example : pidTest ⟨0, 0, 96, 64⟩ (-960) 960 (-960) 960 640
    [(64, 576), (64, 512), (64, 448), (64, 320), (64, 320), (64, 448)] =
    some [96, 96, 96, 192, 0, (-192)] := by decide

/-- tests/test_pid.c:474-495 -/
example : pidTest ⟨96, 96, 96, 64⟩ (-960) 960 (-960) 960 640
    [(64, 576), (64, 512), (64, 512), (64, 576)] =
    some [288, 576, 672, 576] := by decide

/-! ### tests/test_scale.c -/

/-- tests/test_scale.c:14 -/
example : scale 5 (-10) 10 (-640) 640 = some 320 := by decide

/-- tests/test_scale.c:18 -/
example : scale 5 10 (-10) 640 (-640) = some 320 := by decide

/-- tests/test_scale.c:22 -/
example : scale 5 (-10) 10 (-64) 64 = some 32 := by decide

/-- tests/test_scale.c:26 -/
example : scale 5 10 (-10) 64 (-64) = some 32 := by decide

/-- tests/test_scale.c:30 -/
example : scale (-1) 10 (-10) 64 (-64) = some (-6) := by decide

/-- tests/test_scale.c:34 -/
example : scale 1 10 (-10) 64 (-64) = some 6 := by decide

/-- tests/test_scale.c:38 -/
example : scale 1000 0 2000 0 640 = some 320 := by decide

/-- tests/test_scale.c:42 -/
example : scale 1000 0 2000 0 32000 = some 16000 := by decide

/-- tests/test_scale.c:46 -/
example : scale 500 0 2000 0 32000 = some 8000 := by decide

/-- tests/test_scale.c:50 -/
example : scale 1000 0 2000 32000 0 = some 16000 := by decide

/-- tests/test_scale.c:54 -/
example : scale 500 0 2000 32000 0 = some 24000 := by decide

/-- tests/test_scale.c:58 -/
example : scale 128 (-10000) 10000 (-640) 640 = some 8 := by decide

/-- tests/test_scale.c:62 -/
example : scale (-128) (-10000) 10000 (-640) 640 = some (-8) := by decide

/-- tests/test_scale.c:66 -/
example : scale 0 0 1023 0 30720 = some 0 := by decide

/-- tests/test_scale.c:70 -/
example : scale 1023 0 1023 0 30720 = some 30720 := by decide

/-- tests/test_scale.c:74 -/
example : (scale 256 0 1023 0 30720).any (fun x => decide (7686 ≤ x ∧ x ≤ 7693)) = true := by decide

/-- tests/test_scale.c:79 -/
example : (scale 512 0 1023 0 30720).any (fun x => decide (15373 ≤ x ∧ x ≤ 15379)) = true := by decide

/-- tests/test_scale.c:84 -/
example : (scale 768 0 1023 0 30720).any (fun x => decide (23059 ≤ x ∧ x ≤ 23066)) = true := by decide

/-- tests/test_scale.c:89 -/
example : scale 0 0 1023 0 320 = some 0 := by decide

/-- tests/test_scale.c:93 -/
example : scale 1023 0 1023 0 320 = some 320 := by decide

/-- tests/test_scale.c:97 -/
example : (scale 256 0 1023 0 320).any (fun x => decide (80 ≤ x ∧ x ≤ 80)) = true := by decide

/-- tests/test_scale.c:102 -/
example : (scale 512 0 1023 0 320).any (fun x => decide (160 ≤ x ∧ x ≤ 160)) = true := by decide

/-- tests/test_scale.c:107 -/
example : (scale 768 0 1023 0 320).any (fun x => decide (240 ≤ x ∧ x ≤ 240)) = true := by decide

/-- tests/test_scale.c:117 -/
example : unscale 320 (-640) 640 (-10) 10 = some 5 := by decide

/-- tests/test_scale.c:121 -/
example : unscale 320 640 (-640) 10 (-10) = some 5 := by decide

/-- tests/test_scale.c:125 -/
example : unscale 16000 0 32000 0 10 = some 5 := by decide

/-- tests/test_scale.c:129 -/
example : unscale 6400 0 12800 0 500 = some 250 := by decide

/-- tests/test_scale.c:133 -/
example : unscale 3200 0 12800 0 500 = some 125 := by decide

/-- tests/test_scale.c:137 -/
example : unscale 6400 0 12800 500 0 = some 250 := by decide

/-- tests/test_scale.c:141 -/
example : unscale 3200 0 12800 500 0 = some 375 := by decide

/-- tests/test_scale.c:145 -/
example : unscale 819 (-6400) 6400 (-2000) 2000 = some 256 := by decide

/-- tests/test_scale.c:149 -/
example : unscale (-819) (-6400) 6400 (-2000) 2000 = some (-256) := by decide

/-- tests/test_scale.c:153 -/
example : unscale 0 0 30720 0 1023 = some 0 := by decide

/-- tests/test_scale.c:157 -/
example : unscale 30720 0 30720 0 1023 = some 1023 := by decide

/-- tests/test_scale.c:161 -/
example : unscale 7690 0 30720 0 1023 = some 256 := by decide

/-- tests/test_scale.c:165 -/
example : unscale 15376 0 30720 0 1023 = some 512 := by decide

/-- tests/test_scale.c:169 -/
example : unscale 23062 0 30720 0 1023 = some 768 := by decide

/-- tests/test_scale.c:173 -/
example : unscale 0 0 320 0 1023 = some 0 := by decide

/-- tests/test_scale.c:177 -/
example : unscale 320 0 320 0 1023 = some 1023 := by decide

/-- tests/test_scale.c:181 -/
example : unscale 80 0 320 0 1023 = some 256 := by decide

/-- tests/test_scale.c:185 -/
example : unscale 160 0 320 0 1023 = some 512 := by decide

/-- tests/test_scale.c:195 -/
example : unscale 320 0 320 0 8191 = some 8191 := by decide

/-- tests/test_scale.c:199 -/
example : unscale 160 0 320 0 8191 = some 4096 := by decide

/-- tests/test_scale.c:203 -/
example : unscale 0 0 320 0 8191 = some 0 := by decide

/-- tests/test_scale.c:207 -/
example : unscale 320 0 320 8191 0 = some 0 := by decide

/-- tests/test_scale.c:211 -/
example : unscale 160 0 320 8191 0 = some 4096 := by decide

/-- tests/test_scale.c:215 -/
example : unscale 0 0 320 8191 0 = some 8191 := by decide

/-- tests/test_scale.c:227 -/
example : ((scale 100 (-1000) 1000 (-640) 640).bind fun x => unscale x (-640) 640 (-1000) 1000) = some 100 := by decide

/-- tests/test_scale.c:233 -/
example : ((scale (-100) (-1000) 1000 (-640) 640).bind fun x => unscale x (-640) 640 (-1000) 1000) = some (-100) := by decide

/-- tests/test_scale.c:239 -/
example : ((unscale 6 (-640) 640 (-1000) 1000).bind fun x => scale x (-1000) 1000 (-640) 640) = some 6 := by decide

/-- tests/test_scale.c:245 -/
example : ((unscale (-6) (-640) 640 (-1000) 1000).bind fun x => scale x (-1000) 1000 (-640) 640) = some (-6) := by decide

/-- tests/test_scale.c:254 -/
example : rescale 320 (-640) 640 (-640) 640 = some 320 := by decide

/-- tests/test_scale.c:258 -/
example : rescale 320 640 (-640) 640 (-640) = some 320 := by decide

/-- tests/test_scale.c:262 -/
example : rescale 320 (-640) 640 (-64) 64 = some 32 := by decide

/-- tests/test_scale.c:266 -/
example : rescale 320 640 (-640) 64 (-64) = some 32 := by decide

/-- tests/test_scale.c:270 -/
example : rescale (-64) 640 (-640) 64 (-64) = some (-6) := by decide

/-- tests/test_scale.c:274 -/
example : rescale 64 640 (-640) 64 (-64) = some 6 := by decide

/-- tests/test_scale.c:278 -/
example : rescale 6400 0 12800 0 640 = some 320 := by decide

/-- tests/test_scale.c:282 -/
example : rescale 6400 0 12800 0 32000 = some 16000 := by decide

/-- tests/test_scale.c:286 -/
example : rescale 3200 0 12800 0 32000 = some 8000 := by decide

/-- tests/test_scale.c:290 -/
example : rescale 6400 0 12800 32000 0 = some 16000 := by decide

/-- tests/test_scale.c:294 -/
example : rescale 3200 0 12800 32000 0 = some 24000 := by decide

/-- tests/test_scale.c:298 -/
example : rescale 819 (-6400) 6400 (-640) 640 = some 82 := by decide

/-- tests/test_scale.c:302 -/
example : rescale (-819) (-6400) 6400 (-640) 640 = some (-82) := by decide

/-- tests/test_scale.c:306 -/
example : rescale 0 0 65472 0 30720 = some 0 := by decide

/-- tests/test_scale.c:310 -/
example : rescale 65472 0 65472 0 30720 = some 30720 := by decide

/-- tests/test_scale.c:314 -/
example : (rescale 16384 0 65472 0 30720).any (fun x => decide (7686 ≤ x ∧ x ≤ 7693)) = true := by decide

/-- tests/test_scale.c:319 -/
example : (rescale 32768 0 65472 0 30720).any (fun x => decide (15373 ≤ x ∧ x ≤ 15379)) = true := by decide

/-- tests/test_scale.c:324 -/
example : (rescale 49152 0 65472 0 30720).any (fun x => decide (23059 ≤ x ∧ x ≤ 23066)) = true := by decide

/-- tests/test_scale.c:329 -/
example : rescale 0 0 65472 0 320 = some 0 := by decide

/-- tests/test_scale.c:333 -/
example : rescale 65472 0 65472 0 320 = some 320 := by decide

/-- tests/test_scale.c:337 -/
example : (rescale 16384 0 65472 0 320).any (fun x => decide (80 ≤ x ∧ x ≤ 80)) = true := by decide

/-- tests/test_scale.c:342 -/
example : (rescale 32768 0 65472 0 320).any (fun x => decide (160 ≤ x ∧ x ≤ 160)) = true := by decide

/-- tests/test_scale.c:347 -/
example : (rescale 49152 0 65472 0 320).any (fun x => decide (240 ≤ x ∧ x ≤ 240)) = true := by decide

/-! ### tests/test_timer.c (the checks of the hardware registers in `timer_init` are left out) -/

/-- tests/test_timer.c:24 -/
example : timerTick 42 = 43 := by decide

/-- tests/test_timer.c:33 -/
example : timerMsToCount 50 = some 50 := by decide

/-- tests/test_timer.c:35 -/
example : timerMsToCount 100 = some 100 := by decide

/-- tests/test_timer.c:37 -/
example : timerMsToCount 1000 = some 1000 := by decide

/-- tests/test_timer.c:39 -/
example : timerMsToCount 2000 = some 2000 := by decide

/-- tests/test_timer.c:45 -/
example : timerMsToCount (-50) = some (-50) := by decide

/-- tests/test_timer.c:47 -/
example : timerMsToCount (-100) = some (-100) := by decide

/-- tests/test_timer.c:49 -/
example : timerMsToCount (-1000) = some (-1000) := by decide

/-- tests/test_timer.c:51 -/
example : timerMsToCount (-2000) = some (-2000) := by decide

/-- tests/test_timer.c:61 -/
example : timerCountToMs 0 = some 0 := by decide

/-- tests/test_timer.c:63 -/
example : timerCountToMs 1 = some 1 := by decide

/-- tests/test_timer.c:65 -/
example : timerCountToMs 50 = some 50 := by decide

/-- tests/test_timer.c:67 -/
example : timerCountToMs 100 = some 100 := by decide

/-- tests/test_timer.c:69 -/
example : timerCountToMs 10000 = some 10000 := by decide

/-- tests/test_timer.c:71 -/
example : timerCountToMs 32767 = some 32767 := by decide

/-- tests/test_timer.c:74 -/
example : timerCountToMs (-1) = some (-1) := by decide

/-- tests/test_timer.c:76 -/
example : timerCountToMs (-50) = some (-50) := by decide

/-- tests/test_timer.c:78 -/
example : timerCountToMs (-100) = some (-100) := by decide

/-- tests/test_timer.c:80 -/
example : timerCountToMs (-10000) = some (-10000) := by decide

/-- tests/test_timer.c:82 -/
example : timerCountToMs (-32768) = some (-32768) := by decide

/-- tests/test_timer.c:89 -/
example : timerArm 42 100 = some (42 + 100) := by decide

/-- tests/test_timer.c:97 -/
example : (do let t ← timerArm 42 100; timerAdd t 50) = some (42 + 100 + 50) := by decide

/-- tests/test_timer.c:106 -/
example : timerCountSince 42 42 = 0 := by decide

/-- tests/test_timer.c:109 -/
example : timerCountSince 42 43 = (-1) := by decide

/-- tests/test_timer.c:112 -/
example : timerCountSince 42 41 = 1 := by decide

/-- tests/test_timer.c:115 -/
example : timerCountSince 42 65494 = 84 := by decide

/-- tests/test_timer.c:123 -/
example : timerMsSince 500 500 = some 0 := by decide

/-- tests/test_timer.c:125 -/
example : timerMsSince 500 600 = some (-100) := by decide

/-- tests/test_timer.c:127 -/
example : timerMsSince 500 400 = some 100 := by decide

/-- tests/test_timer.c:129 -/
example : timerMsSince 500 65036 = some 1000 := by decide

/-- tests/test_timer.c:136 -/
example : timerExpired 500 500 = true := by decide

/-- tests/test_timer.c:138 -/
example : timerExpired 500 600 = false := by decide

/-- tests/test_timer.c:140 -/
example : timerExpired 500 400 = true := by decide

/-- tests/test_timer.c:142 -/
example : timerExpired 500 65036 = true := by decide

/-- tests/test_scale.c: the disabled check (marked FIXME, 0x300 expected for 3.75 of 5) fails of the model as well -/
example : unscale 240 0 320 0 1023 = some 767 := by decide

end Verif.Tests
