import Verif.Lemmas.EmbeddedG1Part0
import Verif.Lemmas.EmbeddedG1Part1
import Verif.Lemmas.EmbeddedG1Part2
import Verif.Lemmas.EmbeddedG1Part3
import Verif.Lemmas.EmbeddedG1Part4
import Verif.Lemmas.EmbeddedG1Part5
import Verif.Lemmas.EmbeddedG1Part6
import Verif.Lemmas.EmbeddedG1Part7
import Verif.Lemmas.EmbeddedG2Part

/-! Every number of the embedded setup is the encoding of a point of G1 or G2. -/
namespace Verif.Embedded
open Bls

def AllChecked {α : Type} (check : List Nat → α → Bool) : List (List Nat) → Prop
  | [] => True
  | l :: ls => (∃ ys, check l ys = true) ∧ AllChecked check ls

theorem AllChecked.mem {α : Type} {check : List Nat → α → Bool} : ∀ {ls : List (List Nat)}, AllChecked check ls →
    ∀ n ∈ ls.flatten, ∃ l, n ∈ l ∧ ∃ ys, check l ys = true
  | [], _, n, hn => by simp at hn
  | l :: ls, h, n, hn => by
    rw [List.flatten_cons, List.mem_append] at hn
    rcases hn with hn | hn
    · exact ⟨l, hn, h.1⟩
    · exact h.2.mem n hn

/-- second coordinates of the points of the setup -/
def g1Ys : List (List Nat) := [
  g1Ys0, g1Ys1, g1Ys2, g1Ys3, g1Ys4, g1Ys5, g1Ys6, g1Ys7,
  g1Ys8, g1Ys9, g1Ys10, g1Ys11, g1Ys12, g1Ys13, g1Ys14, g1Ys15,
  g1Ys16, g1Ys17, g1Ys18, g1Ys19, g1Ys20, g1Ys21, g1Ys22, g1Ys23,
  g1Ys24, g1Ys25, g1Ys26, g1Ys27, g1Ys28, g1Ys29, g1Ys30, g1Ys31,
  g1Ys32, g1Ys33, g1Ys34, g1Ys35, g1Ys36, g1Ys37, g1Ys38, g1Ys39,
  g1Ys40, g1Ys41, g1Ys42, g1Ys43, g1Ys44, g1Ys45, g1Ys46, g1Ys47,
  g1Ys48, g1Ys49, g1Ys50, g1Ys51, g1Ys52, g1Ys53, g1Ys54, g1Ys55,
  g1Ys56, g1Ys57, g1Ys58, g1Ys59, g1Ys60, g1Ys61, g1Ys62, g1Ys63,
  g1Ys64, g1Ys65, g1Ys66, g1Ys67, g1Ys68, g1Ys69, g1Ys70, g1Ys71,
  g1Ys72, g1Ys73, g1Ys74, g1Ys75, g1Ys76, g1Ys77, g1Ys78, g1Ys79,
  g1Ys80, g1Ys81, g1Ys82, g1Ys83, g1Ys84, g1Ys85, g1Ys86, g1Ys87,
  g1Ys88, g1Ys89, g1Ys90, g1Ys91, g1Ys92, g1Ys93, g1Ys94, g1Ys95,
  g1Ys96, g1Ys97, g1Ys98, g1Ys99, g1Ys100, g1Ys101, g1Ys102, g1Ys103,
  g1Ys104, g1Ys105, g1Ys106, g1Ys107, g1Ys108, g1Ys109, g1Ys110, g1Ys111,
  g1Ys112, g1Ys113, g1Ys114, g1Ys115, g1Ys116, g1Ys117, g1Ys118, g1Ys119,
  g1Ys120, g1Ys121, g1Ys122, g1Ys123, g1Ys124, g1Ys125, g1Ys126, g1Ys127,
  g1Ys128, g1Ys129, g1Ys130, g1Ys131, g1Ys132, g1Ys133, g1Ys134, g1Ys135,
  g1Ys136, g1Ys137, g1Ys138, g1Ys139, g1Ys140, g1Ys141, g1Ys142, g1Ys143,
  g1Ys144, g1Ys145, g1Ys146, g1Ys147, g1Ys148, g1Ys149, g1Ys150, g1Ys151,
  g1Ys152, g1Ys153, g1Ys154, g1Ys155, g1Ys156, g1Ys157, g1Ys158, g1Ys159,
  g1Ys160, g1Ys161, g1Ys162, g1Ys163, g1Ys164, g1Ys165, g1Ys166, g1Ys167,
  g1Ys168, g1Ys169, g1Ys170, g1Ys171, g1Ys172, g1Ys173, g1Ys174, g1Ys175,
  g1Ys176, g1Ys177, g1Ys178, g1Ys179, g1Ys180, g1Ys181, g1Ys182, g1Ys183,
  g1Ys184, g1Ys185, g1Ys186, g1Ys187, g1Ys188, g1Ys189, g1Ys190, g1Ys191,
  g1Ys192, g1Ys193, g1Ys194, g1Ys195, g1Ys196, g1Ys197, g1Ys198, g1Ys199,
  g1Ys200, g1Ys201, g1Ys202, g1Ys203, g1Ys204, g1Ys205, g1Ys206, g1Ys207,
  g1Ys208, g1Ys209, g1Ys210, g1Ys211, g1Ys212, g1Ys213, g1Ys214, g1Ys215,
  g1Ys216, g1Ys217, g1Ys218, g1Ys219, g1Ys220, g1Ys221, g1Ys222, g1Ys223,
  g1Ys224, g1Ys225, g1Ys226, g1Ys227, g1Ys228, g1Ys229, g1Ys230, g1Ys231,
  g1Ys232, g1Ys233, g1Ys234, g1Ys235, g1Ys236, g1Ys237, g1Ys238, g1Ys239,
  g1Ys240, g1Ys241, g1Ys242, g1Ys243, g1Ys244, g1Ys245, g1Ys246, g1Ys247,
  g1Ys248, g1Ys249, g1Ys250, g1Ys251, g1Ys252, g1Ys253, g1Ys254, g1Ys255]

set_option maxRecDepth 100000 in
theorem g1Parts_checked : List.Forall₂ (fun l ys => g1Checks l ys = true) g1Parts g1Ys :=
  .cons g1Part0_check <| .cons g1Part1_check <| .cons g1Part2_check <| .cons g1Part3_check <|
  .cons g1Part4_check <| .cons g1Part5_check <| .cons g1Part6_check <| .cons g1Part7_check <|
  .cons g1Part8_check <| .cons g1Part9_check <| .cons g1Part10_check <| .cons g1Part11_check <|
  .cons g1Part12_check <| .cons g1Part13_check <| .cons g1Part14_check <| .cons g1Part15_check <|
  .cons g1Part16_check <| .cons g1Part17_check <| .cons g1Part18_check <| .cons g1Part19_check <|
  .cons g1Part20_check <| .cons g1Part21_check <| .cons g1Part22_check <| .cons g1Part23_check <|
  .cons g1Part24_check <| .cons g1Part25_check <| .cons g1Part26_check <| .cons g1Part27_check <|
  .cons g1Part28_check <| .cons g1Part29_check <| .cons g1Part30_check <| .cons g1Part31_check <|
  .cons g1Part32_check <| .cons g1Part33_check <| .cons g1Part34_check <| .cons g1Part35_check <|
  .cons g1Part36_check <| .cons g1Part37_check <| .cons g1Part38_check <| .cons g1Part39_check <|
  .cons g1Part40_check <| .cons g1Part41_check <| .cons g1Part42_check <| .cons g1Part43_check <|
  .cons g1Part44_check <| .cons g1Part45_check <| .cons g1Part46_check <| .cons g1Part47_check <|
  .cons g1Part48_check <| .cons g1Part49_check <| .cons g1Part50_check <| .cons g1Part51_check <|
  .cons g1Part52_check <| .cons g1Part53_check <| .cons g1Part54_check <| .cons g1Part55_check <|
  .cons g1Part56_check <| .cons g1Part57_check <| .cons g1Part58_check <| .cons g1Part59_check <|
  .cons g1Part60_check <| .cons g1Part61_check <| .cons g1Part62_check <| .cons g1Part63_check <|
  .cons g1Part64_check <| .cons g1Part65_check <| .cons g1Part66_check <| .cons g1Part67_check <|
  .cons g1Part68_check <| .cons g1Part69_check <| .cons g1Part70_check <| .cons g1Part71_check <|
  .cons g1Part72_check <| .cons g1Part73_check <| .cons g1Part74_check <| .cons g1Part75_check <|
  .cons g1Part76_check <| .cons g1Part77_check <| .cons g1Part78_check <| .cons g1Part79_check <|
  .cons g1Part80_check <| .cons g1Part81_check <| .cons g1Part82_check <| .cons g1Part83_check <|
  .cons g1Part84_check <| .cons g1Part85_check <| .cons g1Part86_check <| .cons g1Part87_check <|
  .cons g1Part88_check <| .cons g1Part89_check <| .cons g1Part90_check <| .cons g1Part91_check <|
  .cons g1Part92_check <| .cons g1Part93_check <| .cons g1Part94_check <| .cons g1Part95_check <|
  .cons g1Part96_check <| .cons g1Part97_check <| .cons g1Part98_check <| .cons g1Part99_check <|
  .cons g1Part100_check <| .cons g1Part101_check <| .cons g1Part102_check <| .cons g1Part103_check <|
  .cons g1Part104_check <| .cons g1Part105_check <| .cons g1Part106_check <| .cons g1Part107_check <|
  .cons g1Part108_check <| .cons g1Part109_check <| .cons g1Part110_check <| .cons g1Part111_check <|
  .cons g1Part112_check <| .cons g1Part113_check <| .cons g1Part114_check <| .cons g1Part115_check <|
  .cons g1Part116_check <| .cons g1Part117_check <| .cons g1Part118_check <| .cons g1Part119_check <|
  .cons g1Part120_check <| .cons g1Part121_check <| .cons g1Part122_check <| .cons g1Part123_check <|
  .cons g1Part124_check <| .cons g1Part125_check <| .cons g1Part126_check <| .cons g1Part127_check <|
  .cons g1Part128_check <| .cons g1Part129_check <| .cons g1Part130_check <| .cons g1Part131_check <|
  .cons g1Part132_check <| .cons g1Part133_check <| .cons g1Part134_check <| .cons g1Part135_check <|
  .cons g1Part136_check <| .cons g1Part137_check <| .cons g1Part138_check <| .cons g1Part139_check <|
  .cons g1Part140_check <| .cons g1Part141_check <| .cons g1Part142_check <| .cons g1Part143_check <|
  .cons g1Part144_check <| .cons g1Part145_check <| .cons g1Part146_check <| .cons g1Part147_check <|
  .cons g1Part148_check <| .cons g1Part149_check <| .cons g1Part150_check <| .cons g1Part151_check <|
  .cons g1Part152_check <| .cons g1Part153_check <| .cons g1Part154_check <| .cons g1Part155_check <|
  .cons g1Part156_check <| .cons g1Part157_check <| .cons g1Part158_check <| .cons g1Part159_check <|
  .cons g1Part160_check <| .cons g1Part161_check <| .cons g1Part162_check <| .cons g1Part163_check <|
  .cons g1Part164_check <| .cons g1Part165_check <| .cons g1Part166_check <| .cons g1Part167_check <|
  .cons g1Part168_check <| .cons g1Part169_check <| .cons g1Part170_check <| .cons g1Part171_check <|
  .cons g1Part172_check <| .cons g1Part173_check <| .cons g1Part174_check <| .cons g1Part175_check <|
  .cons g1Part176_check <| .cons g1Part177_check <| .cons g1Part178_check <| .cons g1Part179_check <|
  .cons g1Part180_check <| .cons g1Part181_check <| .cons g1Part182_check <| .cons g1Part183_check <|
  .cons g1Part184_check <| .cons g1Part185_check <| .cons g1Part186_check <| .cons g1Part187_check <|
  .cons g1Part188_check <| .cons g1Part189_check <| .cons g1Part190_check <| .cons g1Part191_check <|
  .cons g1Part192_check <| .cons g1Part193_check <| .cons g1Part194_check <| .cons g1Part195_check <|
  .cons g1Part196_check <| .cons g1Part197_check <| .cons g1Part198_check <| .cons g1Part199_check <|
  .cons g1Part200_check <| .cons g1Part201_check <| .cons g1Part202_check <| .cons g1Part203_check <|
  .cons g1Part204_check <| .cons g1Part205_check <| .cons g1Part206_check <| .cons g1Part207_check <|
  .cons g1Part208_check <| .cons g1Part209_check <| .cons g1Part210_check <| .cons g1Part211_check <|
  .cons g1Part212_check <| .cons g1Part213_check <| .cons g1Part214_check <| .cons g1Part215_check <|
  .cons g1Part216_check <| .cons g1Part217_check <| .cons g1Part218_check <| .cons g1Part219_check <|
  .cons g1Part220_check <| .cons g1Part221_check <| .cons g1Part222_check <| .cons g1Part223_check <|
  .cons g1Part224_check <| .cons g1Part225_check <| .cons g1Part226_check <| .cons g1Part227_check <|
  .cons g1Part228_check <| .cons g1Part229_check <| .cons g1Part230_check <| .cons g1Part231_check <|
  .cons g1Part232_check <| .cons g1Part233_check <| .cons g1Part234_check <| .cons g1Part235_check <|
  .cons g1Part236_check <| .cons g1Part237_check <| .cons g1Part238_check <| .cons g1Part239_check <|
  .cons g1Part240_check <| .cons g1Part241_check <| .cons g1Part242_check <| .cons g1Part243_check <|
  .cons g1Part244_check <| .cons g1Part245_check <| .cons g1Part246_check <| .cons g1Part247_check <|
  .cons g1Part248_check <| .cons g1Part249_check <| .cons g1Part250_check <| .cons g1Part251_check <|
  .cons g1Part252_check <| .cons g1Part253_check <| .cons g1Part254_check <| .cons g1Part255_check <| .nil

theorem g2Parts_checked : AllChecked g2Checks g2Parts :=
  ⟨⟨_, g2Part0_check⟩, ⟨_, g2Part1_check⟩, ⟨_, g2Part2_check⟩, ⟨_, g2Part3_check⟩,
    ⟨_, g2Part4_check⟩, ⟨_, g2Part5_check⟩, ⟨_, g2Part6_check⟩, ⟨_, g2Part7_check⟩,
    ⟨_, g2Part8_check⟩, ⟨_, g2Part9_check⟩, ⟨_, g2Part10_check⟩, ⟨_, g2Part11_check⟩,
    ⟨_, g2Part12_check⟩, trivial⟩

theorem exists_of_forall₂ {α β : Type} {R : α → β → Prop} {l : List α} {r : List β} (h : List.Forall₂ R l r) :
    ∀ a ∈ l, ∃ b, R a b := by
  induction h with
  | nil => exact fun a ha => absurd ha List.not_mem_nil
  | cons hab _ ih =>
    intro a ha
    rcases List.mem_cons.1 ha with rfl | ha
    · exact ⟨_, hab⟩
    · exact ih a ha

theorem g1_sound : ∀ n ∈ g1Parts.flatten, ∃ P : Curve1, Spec.EncodesG1 (natToBE 48 n) P ∧ frOrder • P = 0 ∧ P ≠ 0 := by
  intro n hn
  obtain ⟨l, hl, hn⟩ := List.mem_flatten.1 hn
  obtain ⟨ys, h⟩ := exists_of_forall₂ g1Parts_checked l hl
  exact g1Checks_sound h n hn

theorem g2_sound : ∀ n ∈ g2Parts.flatten, ∃ P : Curve2, Spec.EncodesG2 (natToBE 96 n) P ∧ frOrder • P = 0 ∧ P ≠ 0 := by
  intro n hn
  obtain ⟨l, hl, ys, h⟩ := g2Parts_checked.mem n hn
  exact g2Checks_sound h n hl

theorem length_g1 : g1Parts.flatten.length = 4096 := by decide +kernel

theorem length_g2 : g2Parts.flatten.length = 65 := by decide +kernel

end Verif.Embedded
