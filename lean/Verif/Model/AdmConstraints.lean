import Verif.Model.Basic
import Mathlib.Algebra.Order.Field.Basic
import Mathlib.Algebra.Order.Ring.Abs

/-!
# Constraints from the ADM variables

`ADMconstraints` (src/physics/ADMvars/ADMconstraints.c:18-3134) at one point of one box; the loops over boxes and points do the same
everywhere, no point uses values of another point. The lines in the comments are lines of this file. Each definition is one
assignment of the C code; a name with `_0` is the first of two assignments to the same variable. Numbers are in a field;
`pi` is what `PI`, 50.26548245743669182/16 and 25.132741228718345908/8 stand for.
-/

namespace Sgrid

/-- What the code reads at one point: the variables of the list `u` and of `psiandderivs` by their number in the list, the
components of the derivatives by their number (lines 42-174), which pointers are NULL (1928, 1947, 2119), and the parameters
(lines 23-24). -/
structure AdmConPt (K : Type) where
  u : Nat → K
  ps : Nat → K
  dg : Nat → K
  ddg : Nat → K
  dK : Nat → K
  dalp : Nat → K
  ddalp : Nat → K
  rhoNull : Bool
  jNull : Bool
  sNull : Bool
  normConstr : Bool
  termByTerm : Bool
  pi : K

namespace Adm
variable {𝔽 : Type} [Field 𝔽]

/-- Line 43. -/
def psi (c : AdmConPt 𝔽) : 𝔽 := c.ps 0

/-- Line 44. -/
def dpop1 (c : AdmConPt 𝔽) : 𝔽 := c.ps 1

/-- Line 45. -/
def dpop2 (c : AdmConPt 𝔽) : 𝔽 := c.ps 2

/-- Line 46. -/
def dpop3 (c : AdmConPt 𝔽) : 𝔽 := c.ps 3

/-- Line 47. -/
def ddpop11 (c : AdmConPt 𝔽) : 𝔽 := c.ps 4

/-- Line 48. -/
def ddpop12 (c : AdmConPt 𝔽) : 𝔽 := c.ps 5

/-- Line 49. -/
def ddpop13 (c : AdmConPt 𝔽) : 𝔽 := c.ps 6

/-- Line 50. -/
def ddpop22 (c : AdmConPt 𝔽) : 𝔽 := c.ps 7

/-- Line 51. -/
def ddpop23 (c : AdmConPt 𝔽) : 𝔽 := c.ps 8

/-- Line 52. -/
def ddpop33 (c : AdmConPt 𝔽) : 𝔽 := c.ps 9

/-- Line 53. -/
def g11 (c : AdmConPt 𝔽) : 𝔽 := c.u 0

/-- Line 54. -/
def g12 (c : AdmConPt 𝔽) : 𝔽 := c.u 1

/-- Line 55. -/
def g13 (c : AdmConPt 𝔽) : 𝔽 := c.u 2

/-- Line 56. -/
def g22 (c : AdmConPt 𝔽) : 𝔽 := c.u 3

/-- Line 57. -/
def g23 (c : AdmConPt 𝔽) : 𝔽 := c.u 4

/-- Line 58. -/
def g33 (c : AdmConPt 𝔽) : 𝔽 := c.u 5

/-- Line 59. -/
def K11 (c : AdmConPt 𝔽) : 𝔽 := c.u 6

/-- Line 60. -/
def K12 (c : AdmConPt 𝔽) : 𝔽 := c.u 7

/-- Line 61. -/
def K13 (c : AdmConPt 𝔽) : 𝔽 := c.u 8

/-- Line 62. -/
def K22 (c : AdmConPt 𝔽) : 𝔽 := c.u 9

/-- Line 63. -/
def K23 (c : AdmConPt 𝔽) : 𝔽 := c.u 10

/-- Line 64. -/
def K33 (c : AdmConPt 𝔽) : 𝔽 := c.u 11

/-- Line 65. -/
def alpha (c : AdmConPt 𝔽) : 𝔽 := c.u 12

/-- Line 66. -/
def beta1 (c : AdmConPt 𝔽) : 𝔽 := c.u 13

/-- Line 67. -/
def beta2 (c : AdmConPt 𝔽) : 𝔽 := c.u 14

/-- Line 68. -/
def beta3 (c : AdmConPt 𝔽) : 𝔽 := c.u 15

/-- Line 69. -/
def rho (c : AdmConPt 𝔽) : 𝔽 := c.u 16

/-- Line 70. -/
def j1 (c : AdmConPt 𝔽) : 𝔽 := c.u 17

/-- Line 71. -/
def j2 (c : AdmConPt 𝔽) : 𝔽 := c.u 18

/-- Line 72. -/
def j3 (c : AdmConPt 𝔽) : 𝔽 := c.u 19

/-- Line 73. -/
def S11 (c : AdmConPt 𝔽) : 𝔽 := c.u 20

/-- Line 74. -/
def S12 (c : AdmConPt 𝔽) : 𝔽 := c.u 21

/-- Line 75. -/
def S13 (c : AdmConPt 𝔽) : 𝔽 := c.u 22

/-- Line 76. -/
def S22 (c : AdmConPt 𝔽) : 𝔽 := c.u 23

/-- Line 77. -/
def S23 (c : AdmConPt 𝔽) : 𝔽 := c.u 24

/-- Line 78. -/
def S33 (c : AdmConPt 𝔽) : 𝔽 := c.u 25

/-- Line 90. -/
def dg111 (c : AdmConPt 𝔽) : 𝔽 := c.dg 0

/-- Line 91. -/
def dg112 (c : AdmConPt 𝔽) : 𝔽 := c.dg 1

/-- Line 92. -/
def dg113 (c : AdmConPt 𝔽) : 𝔽 := c.dg 2

/-- Line 93. -/
def dg121 (c : AdmConPt 𝔽) : 𝔽 := c.dg 3

/-- Line 94. -/
def dg122 (c : AdmConPt 𝔽) : 𝔽 := c.dg 4

/-- Line 95. -/
def dg123 (c : AdmConPt 𝔽) : 𝔽 := c.dg 5

/-- Line 96. -/
def dg131 (c : AdmConPt 𝔽) : 𝔽 := c.dg 6

/-- Line 97. -/
def dg132 (c : AdmConPt 𝔽) : 𝔽 := c.dg 7

/-- Line 98. -/
def dg133 (c : AdmConPt 𝔽) : 𝔽 := c.dg 8

/-- Line 99. -/
def dg221 (c : AdmConPt 𝔽) : 𝔽 := c.dg 9

/-- Line 100. -/
def dg222 (c : AdmConPt 𝔽) : 𝔽 := c.dg 10

/-- Line 101. -/
def dg223 (c : AdmConPt 𝔽) : 𝔽 := c.dg 11

/-- Line 102. -/
def dg231 (c : AdmConPt 𝔽) : 𝔽 := c.dg 12

/-- Line 103. -/
def dg232 (c : AdmConPt 𝔽) : 𝔽 := c.dg 13

/-- Line 104. -/
def dg233 (c : AdmConPt 𝔽) : 𝔽 := c.dg 14

/-- Line 105. -/
def dg331 (c : AdmConPt 𝔽) : 𝔽 := c.dg 15

/-- Line 106. -/
def dg332 (c : AdmConPt 𝔽) : 𝔽 := c.dg 16

/-- Line 107. -/
def dg333 (c : AdmConPt 𝔽) : 𝔽 := c.dg 17

/-- Line 109. -/
def ddg1111 (c : AdmConPt 𝔽) : 𝔽 := c.ddg 0

/-- Line 110. -/
def ddg1112 (c : AdmConPt 𝔽) : 𝔽 := c.ddg 1

/-- Line 111. -/
def ddg1113 (c : AdmConPt 𝔽) : 𝔽 := c.ddg 2

/-- Line 112. -/
def ddg1122 (c : AdmConPt 𝔽) : 𝔽 := c.ddg 3

/-- Line 113. -/
def ddg1123 (c : AdmConPt 𝔽) : 𝔽 := c.ddg 4

/-- Line 114. -/
def ddg1133 (c : AdmConPt 𝔽) : 𝔽 := c.ddg 5

/-- Line 115. -/
def ddg1211 (c : AdmConPt 𝔽) : 𝔽 := c.ddg 6

/-- Line 116. -/
def ddg1212 (c : AdmConPt 𝔽) : 𝔽 := c.ddg 7

/-- Line 117. -/
def ddg1213 (c : AdmConPt 𝔽) : 𝔽 := c.ddg 8

/-- Line 118. -/
def ddg1222 (c : AdmConPt 𝔽) : 𝔽 := c.ddg 9

/-- Line 119. -/
def ddg1223 (c : AdmConPt 𝔽) : 𝔽 := c.ddg 10

/-- Line 120. -/
def ddg1233 (c : AdmConPt 𝔽) : 𝔽 := c.ddg 11

/-- Line 121. -/
def ddg1311 (c : AdmConPt 𝔽) : 𝔽 := c.ddg 12

/-- Line 122. -/
def ddg1312 (c : AdmConPt 𝔽) : 𝔽 := c.ddg 13

/-- Line 123. -/
def ddg1313 (c : AdmConPt 𝔽) : 𝔽 := c.ddg 14

/-- Line 124. -/
def ddg1322 (c : AdmConPt 𝔽) : 𝔽 := c.ddg 15

/-- Line 125. -/
def ddg1323 (c : AdmConPt 𝔽) : 𝔽 := c.ddg 16

/-- Line 126. -/
def ddg1333 (c : AdmConPt 𝔽) : 𝔽 := c.ddg 17

/-- Line 127. -/
def ddg2211 (c : AdmConPt 𝔽) : 𝔽 := c.ddg 18

/-- Line 128. -/
def ddg2212 (c : AdmConPt 𝔽) : 𝔽 := c.ddg 19

/-- Line 129. -/
def ddg2213 (c : AdmConPt 𝔽) : 𝔽 := c.ddg 20

/-- Line 130. -/
def ddg2222 (c : AdmConPt 𝔽) : 𝔽 := c.ddg 21

/-- Line 131. -/
def ddg2223 (c : AdmConPt 𝔽) : 𝔽 := c.ddg 22

/-- Line 132. -/
def ddg2233 (c : AdmConPt 𝔽) : 𝔽 := c.ddg 23

/-- Line 133. -/
def ddg2311 (c : AdmConPt 𝔽) : 𝔽 := c.ddg 24

/-- Line 134. -/
def ddg2312 (c : AdmConPt 𝔽) : 𝔽 := c.ddg 25

/-- Line 135. -/
def ddg2313 (c : AdmConPt 𝔽) : 𝔽 := c.ddg 26

/-- Line 136. -/
def ddg2322 (c : AdmConPt 𝔽) : 𝔽 := c.ddg 27

/-- Line 137. -/
def ddg2323 (c : AdmConPt 𝔽) : 𝔽 := c.ddg 28

/-- Line 138. -/
def ddg2333 (c : AdmConPt 𝔽) : 𝔽 := c.ddg 29

/-- Line 139. -/
def ddg3311 (c : AdmConPt 𝔽) : 𝔽 := c.ddg 30

/-- Line 140. -/
def ddg3312 (c : AdmConPt 𝔽) : 𝔽 := c.ddg 31

/-- Line 141. -/
def ddg3313 (c : AdmConPt 𝔽) : 𝔽 := c.ddg 32

/-- Line 142. -/
def ddg3322 (c : AdmConPt 𝔽) : 𝔽 := c.ddg 33

/-- Line 143. -/
def ddg3323 (c : AdmConPt 𝔽) : 𝔽 := c.ddg 34

/-- Line 144. -/
def ddg3333 (c : AdmConPt 𝔽) : 𝔽 := c.ddg 35

/-- Line 146. -/
def dK111 (c : AdmConPt 𝔽) : 𝔽 := c.dK 0

/-- Line 147. -/
def dK112 (c : AdmConPt 𝔽) : 𝔽 := c.dK 1

/-- Line 148. -/
def dK113 (c : AdmConPt 𝔽) : 𝔽 := c.dK 2

/-- Line 149. -/
def dK121 (c : AdmConPt 𝔽) : 𝔽 := c.dK 3

/-- Line 150. -/
def dK122 (c : AdmConPt 𝔽) : 𝔽 := c.dK 4

/-- Line 151. -/
def dK123 (c : AdmConPt 𝔽) : 𝔽 := c.dK 5

/-- Line 152. -/
def dK131 (c : AdmConPt 𝔽) : 𝔽 := c.dK 6

/-- Line 153. -/
def dK132 (c : AdmConPt 𝔽) : 𝔽 := c.dK 7

/-- Line 154. -/
def dK133 (c : AdmConPt 𝔽) : 𝔽 := c.dK 8

/-- Line 155. -/
def dK221 (c : AdmConPt 𝔽) : 𝔽 := c.dK 9

/-- Line 156. -/
def dK222 (c : AdmConPt 𝔽) : 𝔽 := c.dK 10

/-- Line 157. -/
def dK223 (c : AdmConPt 𝔽) : 𝔽 := c.dK 11

/-- Line 158. -/
def dK231 (c : AdmConPt 𝔽) : 𝔽 := c.dK 12

/-- Line 159. -/
def dK232 (c : AdmConPt 𝔽) : 𝔽 := c.dK 13

/-- Line 160. -/
def dK233 (c : AdmConPt 𝔽) : 𝔽 := c.dK 14

/-- Line 161. -/
def dK331 (c : AdmConPt 𝔽) : 𝔽 := c.dK 15

/-- Line 162. -/
def dK332 (c : AdmConPt 𝔽) : 𝔽 := c.dK 16

/-- Line 163. -/
def dK333 (c : AdmConPt 𝔽) : 𝔽 := c.dK 17

/-- Line 165. -/
def dalp1 (c : AdmConPt 𝔽) : 𝔽 := c.dalp 0

/-- Line 166. -/
def dalp2 (c : AdmConPt 𝔽) : 𝔽 := c.dalp 1

/-- Line 167. -/
def dalp3 (c : AdmConPt 𝔽) : 𝔽 := c.dalp 2

/-- Line 169. -/
def ddalp11 (c : AdmConPt 𝔽) : 𝔽 := c.ddalp 0

/-- Line 170. -/
def ddalp12 (c : AdmConPt 𝔽) : 𝔽 := c.ddalp 1

/-- Line 171. -/
def ddalp13 (c : AdmConPt 𝔽) : 𝔽 := c.ddalp 2

/-- Line 172. -/
def ddalp22 (c : AdmConPt 𝔽) : 𝔽 := c.ddalp 3

/-- Line 173. -/
def ddalp23 (c : AdmConPt 𝔽) : 𝔽 := c.ddalp 4

/-- Line 174. -/
def ddalp33 (c : AdmConPt 𝔽) : 𝔽 := c.ddalp 5

/-- Lines 503-506. -/
def delg111_0 (c : AdmConPt 𝔽) : 𝔽 := dg111 c

/-- Lines 508-511. -/
def delg112_0 (c : AdmConPt 𝔽) : 𝔽 := dg121 c

/-- Lines 513-516. -/
def delg113_0 (c : AdmConPt 𝔽) : 𝔽 := dg131 c

/-- Lines 518-521. -/
def delg122_0 (c : AdmConPt 𝔽) : 𝔽 := dg221 c

/-- Lines 523-526. -/
def delg123_0 (c : AdmConPt 𝔽) : 𝔽 := dg231 c

/-- Lines 528-531. -/
def delg133_0 (c : AdmConPt 𝔽) : 𝔽 := dg331 c

/-- Lines 533-536. -/
def delg211_0 (c : AdmConPt 𝔽) : 𝔽 := dg112 c

/-- Lines 538-541. -/
def delg212_0 (c : AdmConPt 𝔽) : 𝔽 := dg122 c

/-- Lines 543-546. -/
def delg213_0 (c : AdmConPt 𝔽) : 𝔽 := dg132 c

/-- Lines 548-551. -/
def delg222_0 (c : AdmConPt 𝔽) : 𝔽 := dg222 c

/-- Lines 553-556. -/
def delg223_0 (c : AdmConPt 𝔽) : 𝔽 := dg232 c

/-- Lines 558-561. -/
def delg233_0 (c : AdmConPt 𝔽) : 𝔽 := dg332 c

/-- Lines 563-566. -/
def delg311_0 (c : AdmConPt 𝔽) : 𝔽 := dg113 c

/-- Lines 568-571. -/
def delg312_0 (c : AdmConPt 𝔽) : 𝔽 := dg123 c

/-- Lines 573-576. -/
def delg313_0 (c : AdmConPt 𝔽) : 𝔽 := dg133 c

/-- Lines 578-581. -/
def delg322_0 (c : AdmConPt 𝔽) : 𝔽 := dg223 c

/-- Lines 583-586. -/
def delg323_0 (c : AdmConPt 𝔽) : 𝔽 := dg233 c

/-- Lines 588-591. -/
def delg333_0 (c : AdmConPt 𝔽) : 𝔽 := dg333 c

/-- Lines 593-596. -/
def deldelg1111_0 (c : AdmConPt 𝔽) : 𝔽 := ddg1111 c

/-- Lines 598-601. -/
def deldelg1112_0 (c : AdmConPt 𝔽) : 𝔽 := ddg1211 c

/-- Lines 603-606. -/
def deldelg1113_0 (c : AdmConPt 𝔽) : 𝔽 := ddg1311 c

/-- Lines 608-611. -/
def deldelg1122_0 (c : AdmConPt 𝔽) : 𝔽 := ddg2211 c

/-- Lines 613-616. -/
def deldelg1123_0 (c : AdmConPt 𝔽) : 𝔽 := ddg2311 c

/-- Lines 618-621. -/
def deldelg1133_0 (c : AdmConPt 𝔽) : 𝔽 := ddg3311 c

/-- Lines 623-626. -/
def deldelg1211_0 (c : AdmConPt 𝔽) : 𝔽 := ddg1112 c

/-- Lines 628-631. -/
def deldelg1212_0 (c : AdmConPt 𝔽) : 𝔽 := ddg1212 c

/-- Lines 633-636. -/
def deldelg1213_0 (c : AdmConPt 𝔽) : 𝔽 := ddg1312 c

/-- Lines 638-641. -/
def deldelg1222_0 (c : AdmConPt 𝔽) : 𝔽 := ddg2212 c

/-- Lines 643-646. -/
def deldelg1223_0 (c : AdmConPt 𝔽) : 𝔽 := ddg2312 c

/-- Lines 648-651. -/
def deldelg1233_0 (c : AdmConPt 𝔽) : 𝔽 := ddg3312 c

/-- Lines 653-656. -/
def deldelg1311_0 (c : AdmConPt 𝔽) : 𝔽 := ddg1113 c

/-- Lines 658-661. -/
def deldelg1312_0 (c : AdmConPt 𝔽) : 𝔽 := ddg1213 c

/-- Lines 663-666. -/
def deldelg1313_0 (c : AdmConPt 𝔽) : 𝔽 := ddg1313 c

/-- Lines 668-671. -/
def deldelg1322_0 (c : AdmConPt 𝔽) : 𝔽 := ddg2213 c

/-- Lines 673-676. -/
def deldelg1323_0 (c : AdmConPt 𝔽) : 𝔽 := ddg2313 c

/-- Lines 678-681. -/
def deldelg1333_0 (c : AdmConPt 𝔽) : 𝔽 := ddg3313 c

/-- Lines 683-686. -/
def deldelg2211_0 (c : AdmConPt 𝔽) : 𝔽 := ddg1122 c

/-- Lines 688-691. -/
def deldelg2212_0 (c : AdmConPt 𝔽) : 𝔽 := ddg1222 c

/-- Lines 693-696. -/
def deldelg2213_0 (c : AdmConPt 𝔽) : 𝔽 := ddg1322 c

/-- Lines 698-701. -/
def deldelg2222_0 (c : AdmConPt 𝔽) : 𝔽 := ddg2222 c

/-- Lines 703-706. -/
def deldelg2223_0 (c : AdmConPt 𝔽) : 𝔽 := ddg2322 c

/-- Lines 708-711. -/
def deldelg2233_0 (c : AdmConPt 𝔽) : 𝔽 := ddg3322 c

/-- Lines 713-716. -/
def deldelg2311_0 (c : AdmConPt 𝔽) : 𝔽 := ddg1123 c

/-- Lines 718-721. -/
def deldelg2312_0 (c : AdmConPt 𝔽) : 𝔽 := ddg1223 c

/-- Lines 723-726. -/
def deldelg2313_0 (c : AdmConPt 𝔽) : 𝔽 := ddg1323 c

/-- Lines 728-731. -/
def deldelg2322_0 (c : AdmConPt 𝔽) : 𝔽 := ddg2223 c

/-- Lines 733-736. -/
def deldelg2323_0 (c : AdmConPt 𝔽) : 𝔽 := ddg2323 c

/-- Lines 738-741. -/
def deldelg2333_0 (c : AdmConPt 𝔽) : 𝔽 := ddg3323 c

/-- Lines 743-746. -/
def deldelg3311_0 (c : AdmConPt 𝔽) : 𝔽 := ddg1133 c

/-- Lines 748-751. -/
def deldelg3312_0 (c : AdmConPt 𝔽) : 𝔽 := ddg1233 c

/-- Lines 753-756. -/
def deldelg3313_0 (c : AdmConPt 𝔽) : 𝔽 := ddg1333 c

/-- Lines 758-761. -/
def deldelg3322_0 (c : AdmConPt 𝔽) : 𝔽 := ddg2233 c

/-- Lines 763-766. -/
def deldelg3323_0 (c : AdmConPt 𝔽) : 𝔽 := ddg2333 c

/-- Lines 768-771. -/
def deldelg3333_0 (c : AdmConPt 𝔽) : 𝔽 := ddg3333 c

/-- Lines 773-776. -/
def delK111 (c : AdmConPt 𝔽) : 𝔽 := dK111 c

/-- Lines 778-781. -/
def delK112 (c : AdmConPt 𝔽) : 𝔽 := dK121 c

/-- Lines 783-786. -/
def delK113 (c : AdmConPt 𝔽) : 𝔽 := dK131 c

/-- Lines 788-791. -/
def delK122 (c : AdmConPt 𝔽) : 𝔽 := dK221 c

/-- Lines 793-796. -/
def delK123 (c : AdmConPt 𝔽) : 𝔽 := dK231 c

/-- Lines 798-801. -/
def delK133 (c : AdmConPt 𝔽) : 𝔽 := dK331 c

/-- Lines 803-806. -/
def delK211 (c : AdmConPt 𝔽) : 𝔽 := dK112 c

/-- Lines 808-811. -/
def delK212 (c : AdmConPt 𝔽) : 𝔽 := dK122 c

/-- Lines 813-816. -/
def delK213 (c : AdmConPt 𝔽) : 𝔽 := dK132 c

/-- Lines 818-821. -/
def delK222 (c : AdmConPt 𝔽) : 𝔽 := dK222 c

/-- Lines 823-826. -/
def delK223 (c : AdmConPt 𝔽) : 𝔽 := dK232 c

/-- Lines 828-831. -/
def delK233 (c : AdmConPt 𝔽) : 𝔽 := dK332 c

/-- Lines 833-836. -/
def delK311 (c : AdmConPt 𝔽) : 𝔽 := dK113 c

/-- Lines 838-841. -/
def delK312 (c : AdmConPt 𝔽) : 𝔽 := dK123 c

/-- Lines 843-846. -/
def delK313 (c : AdmConPt 𝔽) : 𝔽 := dK133 c

/-- Lines 848-851. -/
def delK322 (c : AdmConPt 𝔽) : 𝔽 := dK223 c

/-- Lines 853-856. -/
def delK323 (c : AdmConPt 𝔽) : 𝔽 := dK233 c

/-- Lines 858-861. -/
def delK333 (c : AdmConPt 𝔽) : 𝔽 := dK333 c

/-- Lines 863-866. -/
def f (c : AdmConPt 𝔽) : 𝔽 := psi c ^ 4

/-- Lines 868-871. -/
def delf1 (c : AdmConPt 𝔽) : 𝔽 := 4 * f c * dpop1 c

/-- Lines 873-876. -/
def delf2 (c : AdmConPt 𝔽) : 𝔽 := 4 * f c * dpop2 c

/-- Lines 878-881. -/
def delf3 (c : AdmConPt 𝔽) : 𝔽 := 4 * f c * dpop3 c

/-- Lines 883-886. -/
def deldelf11 (c : AdmConPt 𝔽) : 𝔽 := f c * (4 * ddpop11 c + 12 * dpop1 c ^ 2)

/-- Lines 888-891. -/
def deldelf12 (c : AdmConPt 𝔽) : 𝔽 := f c * (4 * ddpop12 c + 12 * dpop1 c * dpop2 c)

/-- Lines 893-896. -/
def deldelf13 (c : AdmConPt 𝔽) : 𝔽 := f c * (4 * ddpop13 c + 12 * dpop1 c * dpop3 c)

/-- Lines 898-901. -/
def deldelf22 (c : AdmConPt 𝔽) : 𝔽 := f c * (4 * ddpop22 c + 12 * dpop2 c ^ 2)

/-- Lines 903-906. -/
def deldelf23 (c : AdmConPt 𝔽) : 𝔽 := f c * (4 * ddpop23 c + 12 * dpop2 c * dpop3 c)

/-- Lines 908-911. -/
def deldelf33 (c : AdmConPt 𝔽) : 𝔽 := f c * (4 * ddpop33 c + 12 * dpop3 c ^ 2)

/-- Lines 913-916. -/
def deldelg1111 (c : AdmConPt 𝔽) : 𝔽 := 2 * delf1 c * delg111_0 c + deldelg1111_0 c * f c + deldelf11 c * g11 c

/-- Lines 918-921. -/
def deldelg1112 (c : AdmConPt 𝔽) : 𝔽 := 2 * delf1 c * delg112_0 c + deldelg1112_0 c * f c + deldelf11 c * g12 c

/-- Lines 923-926. -/
def deldelg1113 (c : AdmConPt 𝔽) : 𝔽 := 2 * delf1 c * delg113_0 c + deldelg1113_0 c * f c + deldelf11 c * g13 c

/-- Lines 928-931. -/
def deldelg1122 (c : AdmConPt 𝔽) : 𝔽 := 2 * delf1 c * delg122_0 c + deldelg1122_0 c * f c + deldelf11 c * g22 c

/-- Lines 933-936. -/
def deldelg1123 (c : AdmConPt 𝔽) : 𝔽 := 2 * delf1 c * delg123_0 c + deldelg1123_0 c * f c + deldelf11 c * g23 c

/-- Lines 938-941. -/
def deldelg1133 (c : AdmConPt 𝔽) : 𝔽 := 2 * delf1 c * delg133_0 c + deldelg1133_0 c * f c + deldelf11 c * g33 c

/-- Lines 943-946. -/
def deldelg1211 (c : AdmConPt 𝔽) : 𝔽 :=
  delf2 c * delg111_0 c + delf1 c * delg211_0 c + deldelg1211_0 c * f c + deldelf12 c * g11 c

/-- Lines 948-951. -/
def deldelg1212 (c : AdmConPt 𝔽) : 𝔽 :=
  delf2 c * delg112_0 c + delf1 c * delg212_0 c + deldelg1212_0 c * f c + deldelf12 c * g12 c

/-- Lines 953-956. -/
def deldelg1213 (c : AdmConPt 𝔽) : 𝔽 :=
  delf2 c * delg113_0 c + delf1 c * delg213_0 c + deldelg1213_0 c * f c + deldelf12 c * g13 c

/-- Lines 958-961. -/
def deldelg1222 (c : AdmConPt 𝔽) : 𝔽 :=
  delf2 c * delg122_0 c + delf1 c * delg222_0 c + deldelg1222_0 c * f c + deldelf12 c * g22 c

/-- Lines 963-966. -/
def deldelg1223 (c : AdmConPt 𝔽) : 𝔽 :=
  delf2 c * delg123_0 c + delf1 c * delg223_0 c + deldelg1223_0 c * f c + deldelf12 c * g23 c

/-- Lines 968-971. -/
def deldelg1233 (c : AdmConPt 𝔽) : 𝔽 :=
  delf2 c * delg133_0 c + delf1 c * delg233_0 c + deldelg1233_0 c * f c + deldelf12 c * g33 c

/-- Lines 973-976. -/
def deldelg1311 (c : AdmConPt 𝔽) : 𝔽 :=
  delf3 c * delg111_0 c + delf1 c * delg311_0 c + deldelg1311_0 c * f c + deldelf13 c * g11 c

/-- Lines 978-981. -/
def deldelg1312 (c : AdmConPt 𝔽) : 𝔽 :=
  delf3 c * delg112_0 c + delf1 c * delg312_0 c + deldelg1312_0 c * f c + deldelf13 c * g12 c

/-- Lines 983-986. -/
def deldelg1313 (c : AdmConPt 𝔽) : 𝔽 :=
  delf3 c * delg113_0 c + delf1 c * delg313_0 c + deldelg1313_0 c * f c + deldelf13 c * g13 c

/-- Lines 988-991. -/
def deldelg1322 (c : AdmConPt 𝔽) : 𝔽 :=
  delf3 c * delg122_0 c + delf1 c * delg322_0 c + deldelg1322_0 c * f c + deldelf13 c * g22 c

/-- Lines 993-996. -/
def deldelg1323 (c : AdmConPt 𝔽) : 𝔽 :=
  delf3 c * delg123_0 c + delf1 c * delg323_0 c + deldelg1323_0 c * f c + deldelf13 c * g23 c

/-- Lines 998-1001. -/
def deldelg1333 (c : AdmConPt 𝔽) : 𝔽 :=
  delf3 c * delg133_0 c + delf1 c * delg333_0 c + deldelg1333_0 c * f c + deldelf13 c * g33 c

/-- Lines 1003-1006. -/
def deldelg2211 (c : AdmConPt 𝔽) : 𝔽 := 2 * delf2 c * delg211_0 c + deldelg2211_0 c * f c + deldelf22 c * g11 c

/-- Lines 1008-1011. -/
def deldelg2212 (c : AdmConPt 𝔽) : 𝔽 := 2 * delf2 c * delg212_0 c + deldelg2212_0 c * f c + deldelf22 c * g12 c

/-- Lines 1013-1016. -/
def deldelg2213 (c : AdmConPt 𝔽) : 𝔽 := 2 * delf2 c * delg213_0 c + deldelg2213_0 c * f c + deldelf22 c * g13 c

/-- Lines 1018-1021. -/
def deldelg2222 (c : AdmConPt 𝔽) : 𝔽 := 2 * delf2 c * delg222_0 c + deldelg2222_0 c * f c + deldelf22 c * g22 c

/-- Lines 1023-1026. -/
def deldelg2223 (c : AdmConPt 𝔽) : 𝔽 := 2 * delf2 c * delg223_0 c + deldelg2223_0 c * f c + deldelf22 c * g23 c

/-- Lines 1028-1031. -/
def deldelg2233 (c : AdmConPt 𝔽) : 𝔽 := 2 * delf2 c * delg233_0 c + deldelg2233_0 c * f c + deldelf22 c * g33 c

/-- Lines 1033-1036. -/
def deldelg2311 (c : AdmConPt 𝔽) : 𝔽 :=
  delf3 c * delg211_0 c + delf2 c * delg311_0 c + deldelg2311_0 c * f c + deldelf23 c * g11 c

/-- Lines 1038-1041. -/
def deldelg2312 (c : AdmConPt 𝔽) : 𝔽 :=
  delf3 c * delg212_0 c + delf2 c * delg312_0 c + deldelg2312_0 c * f c + deldelf23 c * g12 c

/-- Lines 1043-1046. -/
def deldelg2313 (c : AdmConPt 𝔽) : 𝔽 :=
  delf3 c * delg213_0 c + delf2 c * delg313_0 c + deldelg2313_0 c * f c + deldelf23 c * g13 c

/-- Lines 1048-1051. -/
def deldelg2322 (c : AdmConPt 𝔽) : 𝔽 :=
  delf3 c * delg222_0 c + delf2 c * delg322_0 c + deldelg2322_0 c * f c + deldelf23 c * g22 c

/-- Lines 1053-1056. -/
def deldelg2323 (c : AdmConPt 𝔽) : 𝔽 :=
  delf3 c * delg223_0 c + delf2 c * delg323_0 c + deldelg2323_0 c * f c + deldelf23 c * g23 c

/-- Lines 1058-1061. -/
def deldelg2333 (c : AdmConPt 𝔽) : 𝔽 :=
  delf3 c * delg233_0 c + delf2 c * delg333_0 c + deldelg2333_0 c * f c + deldelf23 c * g33 c

/-- Lines 1063-1066. -/
def deldelg3311 (c : AdmConPt 𝔽) : 𝔽 := 2 * delf3 c * delg311_0 c + deldelg3311_0 c * f c + deldelf33 c * g11 c

/-- Lines 1068-1071. -/
def deldelg3312 (c : AdmConPt 𝔽) : 𝔽 := 2 * delf3 c * delg312_0 c + deldelg3312_0 c * f c + deldelf33 c * g12 c

/-- Lines 1073-1076. -/
def deldelg3313 (c : AdmConPt 𝔽) : 𝔽 := 2 * delf3 c * delg313_0 c + deldelg3313_0 c * f c + deldelf33 c * g13 c

/-- Lines 1078-1081. -/
def deldelg3322 (c : AdmConPt 𝔽) : 𝔽 := 2 * delf3 c * delg322_0 c + deldelg3322_0 c * f c + deldelf33 c * g22 c

/-- Lines 1083-1086. -/
def deldelg3323 (c : AdmConPt 𝔽) : 𝔽 := 2 * delf3 c * delg323_0 c + deldelg3323_0 c * f c + deldelf33 c * g23 c

/-- Lines 1088-1091. -/
def deldelg3333 (c : AdmConPt 𝔽) : 𝔽 := 2 * delf3 c * delg333_0 c + deldelg3333_0 c * f c + deldelf33 c * g33 c

/-- Lines 1093-1096. -/
def delg111 (c : AdmConPt 𝔽) : 𝔽 := delg111_0 c * f c + delf1 c * g11 c

/-- Lines 1098-1101. -/
def delg112 (c : AdmConPt 𝔽) : 𝔽 := delg112_0 c * f c + delf1 c * g12 c

/-- Lines 1103-1106. -/
def delg113 (c : AdmConPt 𝔽) : 𝔽 := delg113_0 c * f c + delf1 c * g13 c

/-- Lines 1108-1111. -/
def delg122 (c : AdmConPt 𝔽) : 𝔽 := delg122_0 c * f c + delf1 c * g22 c

/-- Lines 1113-1116. -/
def delg123 (c : AdmConPt 𝔽) : 𝔽 := delg123_0 c * f c + delf1 c * g23 c

/-- Lines 1118-1121. -/
def delg133 (c : AdmConPt 𝔽) : 𝔽 := delg133_0 c * f c + delf1 c * g33 c

/-- Lines 1123-1126. -/
def delg211 (c : AdmConPt 𝔽) : 𝔽 := delg211_0 c * f c + delf2 c * g11 c

/-- Lines 1128-1131. -/
def delg212 (c : AdmConPt 𝔽) : 𝔽 := delg212_0 c * f c + delf2 c * g12 c

/-- Lines 1133-1136. -/
def delg213 (c : AdmConPt 𝔽) : 𝔽 := delg213_0 c * f c + delf2 c * g13 c

/-- Lines 1138-1141. -/
def delg222 (c : AdmConPt 𝔽) : 𝔽 := delg222_0 c * f c + delf2 c * g22 c

/-- Lines 1143-1146. -/
def delg223 (c : AdmConPt 𝔽) : 𝔽 := delg223_0 c * f c + delf2 c * g23 c

/-- Lines 1148-1151. -/
def delg233 (c : AdmConPt 𝔽) : 𝔽 := delg233_0 c * f c + delf2 c * g33 c

/-- Lines 1153-1156. -/
def delg311 (c : AdmConPt 𝔽) : 𝔽 := delg311_0 c * f c + delf3 c * g11 c

/-- Lines 1158-1161. -/
def delg312 (c : AdmConPt 𝔽) : 𝔽 := delg312_0 c * f c + delf3 c * g12 c

/-- Lines 1163-1166. -/
def delg313 (c : AdmConPt 𝔽) : 𝔽 := delg313_0 c * f c + delf3 c * g13 c

/-- Lines 1168-1171. -/
def delg322 (c : AdmConPt 𝔽) : 𝔽 := delg322_0 c * f c + delf3 c * g22 c

/-- Lines 1173-1176. -/
def delg323 (c : AdmConPt 𝔽) : 𝔽 := delg323_0 c * f c + delf3 c * g23 c

/-- Lines 1178-1181. -/
def delg333 (c : AdmConPt 𝔽) : 𝔽 := delg333_0 c * f c + delf3 c * g33 c

/-- Lines 1183-1188. -/
def detginvf (c : AdmConPt 𝔽) : 𝔽 :=
  1 / (f c * (2 * g12 c * g13 c * g23 c + g11 c * g22 c * g33 c - g33 c * g12 c ^ 2 - g22 c * g13 c ^ 2 - g11 c *
    g23 c ^ 2))

/-- Lines 1190-1193. -/
def ginv11 (c : AdmConPt 𝔽) : 𝔽 := detginvf c * (g22 c * g33 c - g23 c ^ 2)

/-- Lines 1195-1198. -/
def ginv12 (c : AdmConPt 𝔽) : 𝔽 := detginvf c * (g13 c * g23 c - g12 c * g33 c)

/-- Lines 1200-1203. -/
def ginv13 (c : AdmConPt 𝔽) : 𝔽 := detginvf c * (-(g13 c * g22 c) + g12 c * g23 c)

/-- Lines 1205-1208. -/
def ginv22 (c : AdmConPt 𝔽) : 𝔽 := detginvf c * (g11 c * g33 c - g13 c ^ 2)

/-- Lines 1210-1213. -/
def ginv23 (c : AdmConPt 𝔽) : 𝔽 := detginvf c * (g12 c * g13 c - g11 c * g23 c)

/-- Lines 1215-1218. -/
def ginv33 (c : AdmConPt 𝔽) : 𝔽 := detginvf c * (g11 c * g22 c - g12 c ^ 2)

/-- Lines 1220-1223. -/
def gammado111 (c : AdmConPt 𝔽) : 𝔽 := 1 / 2 * delg111 c

/-- Lines 1225-1228. -/
def gammado112 (c : AdmConPt 𝔽) : 𝔽 := 1 / 2 * delg211 c

/-- Lines 1230-1233. -/
def gammado113 (c : AdmConPt 𝔽) : 𝔽 := 1 / 2 * delg311 c

/-- Lines 1235-1238. -/
def gammado121 (c : AdmConPt 𝔽) : 𝔽 := 1 / 2 * delg211 c

/-- Lines 1240-1243. -/
def gammado122 (c : AdmConPt 𝔽) : 𝔽 := (-(1 / 2)) * delg122 c + delg212 c

/-- Lines 1245-1248. -/
def gammado123 (c : AdmConPt 𝔽) : 𝔽 := 1 / 2 * (-delg123 c + delg213 c + delg312 c)

/-- Lines 1250-1253. -/
def gammado131 (c : AdmConPt 𝔽) : 𝔽 := 1 / 2 * delg311 c

/-- Lines 1255-1258. -/
def gammado132 (c : AdmConPt 𝔽) : 𝔽 := 1 / 2 * (-delg123 c + delg213 c + delg312 c)

/-- Lines 1260-1263. -/
def gammado133 (c : AdmConPt 𝔽) : 𝔽 := (-(1 / 2)) * delg133 c + delg313 c

/-- Lines 1265-1268. -/
def gammado211 (c : AdmConPt 𝔽) : 𝔽 := delg112 c - 1 / 2 * delg211 c

/-- Lines 1270-1273. -/
def gammado212 (c : AdmConPt 𝔽) : 𝔽 := 1 / 2 * delg122 c

/-- Lines 1275-1278. -/
def gammado213 (c : AdmConPt 𝔽) : 𝔽 := 1 / 2 * (delg123 c - delg213 c + delg312 c)

/-- Lines 1280-1283. -/
def gammado221 (c : AdmConPt 𝔽) : 𝔽 := 1 / 2 * delg122 c

/-- Lines 1285-1288. -/
def gammado222 (c : AdmConPt 𝔽) : 𝔽 := 1 / 2 * delg222 c

/-- Lines 1290-1293. -/
def gammado223 (c : AdmConPt 𝔽) : 𝔽 := 1 / 2 * delg322 c

/-- Lines 1295-1298. -/
def gammado231 (c : AdmConPt 𝔽) : 𝔽 := 1 / 2 * (delg123 c - delg213 c + delg312 c)

/-- Lines 1300-1303. -/
def gammado232 (c : AdmConPt 𝔽) : 𝔽 := 1 / 2 * delg322 c

/-- Lines 1305-1308. -/
def gammado233 (c : AdmConPt 𝔽) : 𝔽 := (-(1 / 2)) * delg233 c + delg323 c

/-- Lines 1310-1313. -/
def gammado311 (c : AdmConPt 𝔽) : 𝔽 := delg113 c - 1 / 2 * delg311 c

/-- Lines 1315-1318. -/
def gammado312 (c : AdmConPt 𝔽) : 𝔽 := 1 / 2 * (delg123 c + delg213 c - delg312 c)

/-- Lines 1320-1323. -/
def gammado313 (c : AdmConPt 𝔽) : 𝔽 := 1 / 2 * delg133 c

/-- Lines 1325-1328. -/
def gammado321 (c : AdmConPt 𝔽) : 𝔽 := 1 / 2 * (delg123 c + delg213 c - delg312 c)

/-- Lines 1330-1333. -/
def gammado322 (c : AdmConPt 𝔽) : 𝔽 := delg223 c - 1 / 2 * delg322 c

/-- Lines 1335-1338. -/
def gammado323 (c : AdmConPt 𝔽) : 𝔽 := 1 / 2 * delg233 c

/-- Lines 1340-1343. -/
def gammado331 (c : AdmConPt 𝔽) : 𝔽 := 1 / 2 * delg133 c

/-- Lines 1345-1348. -/
def gammado332 (c : AdmConPt 𝔽) : 𝔽 := 1 / 2 * delg233 c

/-- Lines 1350-1353. -/
def gammado333 (c : AdmConPt 𝔽) : 𝔽 := 1 / 2 * delg333 c

/-- Lines 1355-1358. -/
def gamma111 (c : AdmConPt 𝔽) : 𝔽 := gammado111 c * ginv11 c + gammado211 c * ginv12 c + gammado311 c * ginv13 c

/-- Lines 1360-1363. -/
def gamma112 (c : AdmConPt 𝔽) : 𝔽 := gammado112 c * ginv11 c + gammado212 c * ginv12 c + gammado312 c * ginv13 c

/-- Lines 1365-1368. -/
def gamma113 (c : AdmConPt 𝔽) : 𝔽 := gammado113 c * ginv11 c + gammado213 c * ginv12 c + gammado313 c * ginv13 c

/-- Lines 1370-1373. -/
def gamma121 (c : AdmConPt 𝔽) : 𝔽 := gammado121 c * ginv11 c + gammado221 c * ginv12 c + gammado321 c * ginv13 c

/-- Lines 1375-1378. -/
def gamma122 (c : AdmConPt 𝔽) : 𝔽 := gammado122 c * ginv11 c + gammado222 c * ginv12 c + gammado322 c * ginv13 c

/-- Lines 1380-1383. -/
def gamma123 (c : AdmConPt 𝔽) : 𝔽 := gammado123 c * ginv11 c + gammado223 c * ginv12 c + gammado323 c * ginv13 c

/-- Lines 1385-1388. -/
def gamma131 (c : AdmConPt 𝔽) : 𝔽 := gammado131 c * ginv11 c + gammado231 c * ginv12 c + gammado331 c * ginv13 c

/-- Lines 1390-1393. -/
def gamma132 (c : AdmConPt 𝔽) : 𝔽 := gammado132 c * ginv11 c + gammado232 c * ginv12 c + gammado332 c * ginv13 c

/-- Lines 1395-1398. -/
def gamma133 (c : AdmConPt 𝔽) : 𝔽 := gammado133 c * ginv11 c + gammado233 c * ginv12 c + gammado333 c * ginv13 c

/-- Lines 1400-1403. -/
def gamma211 (c : AdmConPt 𝔽) : 𝔽 := gammado111 c * ginv12 c + gammado211 c * ginv22 c + gammado311 c * ginv23 c

/-- Lines 1405-1408. -/
def gamma212 (c : AdmConPt 𝔽) : 𝔽 := gammado112 c * ginv12 c + gammado212 c * ginv22 c + gammado312 c * ginv23 c

/-- Lines 1410-1413. -/
def gamma213 (c : AdmConPt 𝔽) : 𝔽 := gammado113 c * ginv12 c + gammado213 c * ginv22 c + gammado313 c * ginv23 c

/-- Lines 1415-1418. -/
def gamma221 (c : AdmConPt 𝔽) : 𝔽 := gammado121 c * ginv12 c + gammado221 c * ginv22 c + gammado321 c * ginv23 c

/-- Lines 1420-1423. -/
def gamma222 (c : AdmConPt 𝔽) : 𝔽 := gammado122 c * ginv12 c + gammado222 c * ginv22 c + gammado322 c * ginv23 c

/-- Lines 1425-1428. -/
def gamma223 (c : AdmConPt 𝔽) : 𝔽 := gammado123 c * ginv12 c + gammado223 c * ginv22 c + gammado323 c * ginv23 c

/-- Lines 1430-1433. -/
def gamma231 (c : AdmConPt 𝔽) : 𝔽 := gammado131 c * ginv12 c + gammado231 c * ginv22 c + gammado331 c * ginv23 c

/-- Lines 1435-1438. -/
def gamma232 (c : AdmConPt 𝔽) : 𝔽 := gammado132 c * ginv12 c + gammado232 c * ginv22 c + gammado332 c * ginv23 c

/-- Lines 1440-1443. -/
def gamma233 (c : AdmConPt 𝔽) : 𝔽 := gammado133 c * ginv12 c + gammado233 c * ginv22 c + gammado333 c * ginv23 c

/-- Lines 1445-1448. -/
def gamma311 (c : AdmConPt 𝔽) : 𝔽 := gammado111 c * ginv13 c + gammado211 c * ginv23 c + gammado311 c * ginv33 c

/-- Lines 1450-1453. -/
def gamma312 (c : AdmConPt 𝔽) : 𝔽 := gammado112 c * ginv13 c + gammado212 c * ginv23 c + gammado312 c * ginv33 c

/-- Lines 1455-1458. -/
def gamma313 (c : AdmConPt 𝔽) : 𝔽 := gammado113 c * ginv13 c + gammado213 c * ginv23 c + gammado313 c * ginv33 c

/-- Lines 1460-1463. -/
def gamma321 (c : AdmConPt 𝔽) : 𝔽 := gammado121 c * ginv13 c + gammado221 c * ginv23 c + gammado321 c * ginv33 c

/-- Lines 1465-1468. -/
def gamma322 (c : AdmConPt 𝔽) : 𝔽 := gammado122 c * ginv13 c + gammado222 c * ginv23 c + gammado322 c * ginv33 c

/-- Lines 1470-1473. -/
def gamma323 (c : AdmConPt 𝔽) : 𝔽 := gammado123 c * ginv13 c + gammado223 c * ginv23 c + gammado323 c * ginv33 c

/-- Lines 1475-1478. -/
def gamma331 (c : AdmConPt 𝔽) : 𝔽 := gammado131 c * ginv13 c + gammado231 c * ginv23 c + gammado331 c * ginv33 c

/-- Lines 1480-1483. -/
def gamma332 (c : AdmConPt 𝔽) : 𝔽 := gammado132 c * ginv13 c + gammado232 c * ginv23 c + gammado332 c * ginv33 c

/-- Lines 1485-1488. -/
def gamma333 (c : AdmConPt 𝔽) : 𝔽 := gammado133 c * ginv13 c + gammado233 c * ginv23 c + gammado333 c * ginv33 c

/-- Lines 1490-1508. -/
def R11 (c : AdmConPt 𝔽) : 𝔽 :=
  (gamma112 c * gammado111 c - gamma111 c * gammado121 c + gamma212 c * gammado211 c - gamma211 c * gammado221 c +
    gamma312 c * gammado311 c - gamma311 c * gammado321 c) * ginv12 c + (gamma113 c * gammado111 c - gamma111 c *
    gammado131 c + gamma213 c * gammado211 c - gamma211 c * gammado231 c + gamma313 c * gammado311 c - gamma311 c *
    gammado331 c) * ginv13 c + (deldelg1212 c + 1 / 2 * (-deldelg1122 c - deldelg2211 c) + gamma112 c * gammado112 c
    - gamma111 c * gammado122 c + gamma212 c * gammado212 c - gamma211 c * gammado222 c + gamma312 c * gammado312 c
    - gamma311 c * gammado322 c) * ginv22 c + (-deldelg1123 c + deldelg1213 c + deldelg1312 c - deldelg2311 c +
    gamma113 c * gammado112 c + gamma112 c * gammado113 c - gamma111 c * (gammado123 c + gammado132 c) + gamma213 c
    * gammado212 c + gamma212 c * gammado213 c - gamma211 c * (gammado223 c + gammado232 c) + gamma313 c *
    gammado312 c + gamma312 c * gammado313 c - gamma311 c * (gammado323 c + gammado332 c)) * ginv23 c +
    (deldelg1313 c + 1 / 2 * (-deldelg1133 c - deldelg3311 c) + gamma113 c * gammado113 c - gamma111 c *
    gammado133 c + gamma213 c * gammado213 c - gamma211 c * gammado233 c + gamma313 c * gammado313 c - gamma311 c *
    gammado333 c) * ginv33 c

/-- Lines 1510-1529. -/
def R12_0 (c : AdmConPt 𝔽) : 𝔽 :=
  (-(gamma112 c * gammado111 c) + gamma111 c * gammado121 c - gamma212 c * gammado211 c + gamma211 c *
    gammado221 c - gamma312 c * gammado311 c + gamma311 c * gammado321 c) * ginv11 c + (-deldelg1212 c + 1 / 2 *
    (deldelg1122 c + deldelg2211 c) - gamma112 c * gammado112 c + gamma111 c * gammado122 c - gamma212 c *
    gammado212 c + gamma211 c * gammado222 c - gamma312 c * gammado312 c + gamma311 c * gammado322 c) * ginv12 c +
    (1 / 2 * (deldelg1123 c - deldelg1213 c - deldelg1312 c + deldelg2311 c) + gamma113 c * gammado121 c +
    gamma111 c * gammado123 c - gamma112 c * (gammado113 c + gammado131 c) + gamma213 c * gammado221 c + gamma211 c
    * gammado223 c - gamma212 c * (gammado213 c + gammado231 c) + gamma313 c * gammado321 c + gamma311 c *
    gammado323 c - gamma312 c * (gammado313 c + gammado331 c)) * ginv13 c + (1 / 2 * (-deldelg1223 c + deldelg1322 c
    + deldelg2213 c - deldelg2312 c) + gamma113 c * gammado122 c - gamma112 c * gammado132 c + gamma213 c *
    gammado222 c - gamma212 c * gammado232 c + gamma313 c * gammado322 c - gamma312 c * gammado332 c) * ginv23 c +
    (1 / 2 * (-deldelg1233 c + deldelg1323 c + deldelg2313 c - deldelg3312 c) + gamma113 c * gammado123 c -
    gamma112 c * gammado133 c + gamma213 c * gammado223 c - gamma212 c * gammado233 c + gamma313 c * gammado323 c -
    gamma312 c * gammado333 c) * ginv33 c

/-- Lines 1531-1550. -/
def R12 (c : AdmConPt 𝔽) : 𝔽 :=
  (-deldelg1212 c + 1 / 2 * (deldelg1122 c + deldelg2211 c) + gamma122 c * gammado111 c - gamma121 c *
    gammado121 c + gamma222 c * gammado211 c - gamma221 c * gammado221 c + gamma322 c * gammado311 c - gamma321 c *
    gammado321 c) * ginv12 c + (1 / 2 * (deldelg1123 c - deldelg1213 c - deldelg1312 c + deldelg2311 c) + gamma123 c
    * gammado111 c - gamma121 c * gammado131 c + gamma223 c * gammado211 c - gamma221 c * gammado231 c + gamma323 c
    * gammado311 c - gamma321 c * gammado331 c) * ginv13 c + (gamma122 c * gammado112 c - gamma121 c * gammado122 c
    + gamma222 c * gammado212 c - gamma221 c * gammado222 c + gamma322 c * gammado312 c - gamma321 c * gammado322 c)
    * ginv22 c + (1 / 2 * (-deldelg1223 c + deldelg1322 c + deldelg2213 c - deldelg2312 c) + gamma123 c *
    gammado112 c + gamma122 c * gammado113 c - gamma121 c * (gammado123 c + gammado132 c) + gamma223 c *
    gammado212 c + gamma222 c * gammado213 c - gamma221 c * (gammado223 c + gammado232 c) + gamma323 c *
    gammado312 c + gamma322 c * gammado313 c - gamma321 c * (gammado323 c + gammado332 c)) * ginv23 c + (1 / 2 *
    (-deldelg1233 c + deldelg1323 c + deldelg2313 c - deldelg3312 c) + gamma123 c * gammado113 c - gamma121 c *
    gammado133 c + gamma223 c * gammado213 c - gamma221 c * gammado233 c + gamma323 c * gammado313 c - gamma321 c *
    gammado333 c) * ginv33 c

/-- Lines 1552-1571. -/
def R13_0 (c : AdmConPt 𝔽) : 𝔽 :=
  (-(gamma113 c * gammado111 c) + gamma111 c * gammado131 c - gamma213 c * gammado211 c + gamma211 c *
    gammado231 c - gamma313 c * gammado311 c + gamma311 c * gammado331 c) * ginv11 c + (1 / 2 * (deldelg1123 c -
    deldelg1213 c - deldelg1312 c + deldelg2311 c) - gamma113 c * (gammado112 c + gammado121 c) + gamma112 c *
    gammado131 c + gamma111 c * gammado132 c - gamma213 c * (gammado212 c + gammado221 c) + gamma212 c *
    gammado231 c + gamma211 c * gammado232 c - gamma313 c * (gammado312 c + gammado321 c) + gamma312 c *
    gammado331 c + gamma311 c * gammado332 c) * ginv12 c + (-deldelg1313 c + 1 / 2 * (deldelg1133 c + deldelg3311 c)
    - gamma113 c * gammado113 c + gamma111 c * gammado133 c - gamma213 c * gammado213 c + gamma211 c * gammado233 c
    - gamma313 c * gammado313 c + gamma311 c * gammado333 c) * ginv13 c + (1 / 2 * (deldelg1223 c - deldelg1322 c -
    deldelg2213 c + deldelg2312 c) - gamma113 c * gammado122 c + gamma112 c * gammado132 c - gamma213 c *
    gammado222 c + gamma212 c * gammado232 c - gamma313 c * gammado322 c + gamma312 c * gammado332 c) * ginv22 c +
    (1 / 2 * (deldelg1233 c - deldelg1323 c - deldelg2313 c + deldelg3312 c) - gamma113 c * gammado123 c +
    gamma112 c * gammado133 c - gamma213 c * gammado223 c + gamma212 c * gammado233 c - gamma313 c * gammado323 c +
    gamma312 c * gammado333 c) * ginv23 c

/-- Lines 1573-1592. -/
def R13 (c : AdmConPt 𝔽) : 𝔽 :=
  (1 / 2 * (deldelg1123 c - deldelg1213 c - deldelg1312 c + deldelg2311 c) + gamma132 c * gammado111 c -
    gamma131 c * gammado121 c + gamma232 c * gammado211 c - gamma231 c * gammado221 c + gamma332 c * gammado311 c -
    gamma331 c * gammado321 c) * ginv12 c + (-deldelg1313 c + 1 / 2 * (deldelg1133 c + deldelg3311 c) + gamma133 c *
    gammado111 c - gamma131 c * gammado131 c + gamma233 c * gammado211 c - gamma231 c * gammado231 c + gamma333 c *
    gammado311 c - gamma331 c * gammado331 c) * ginv13 c + (1 / 2 * (deldelg1223 c - deldelg1322 c - deldelg2213 c +
    deldelg2312 c) + gamma132 c * gammado112 c - gamma131 c * gammado122 c + gamma232 c * gammado212 c - gamma231 c
    * gammado222 c + gamma332 c * gammado312 c - gamma331 c * gammado322 c) * ginv22 c + (1 / 2 * (deldelg1233 c -
    deldelg1323 c - deldelg2313 c + deldelg3312 c) + gamma133 c * gammado112 c + gamma132 c * gammado113 c -
    gamma131 c * (gammado123 c + gammado132 c) + gamma233 c * gammado212 c + gamma232 c * gammado213 c - gamma231 c
    * (gammado223 c + gammado232 c) + gamma333 c * gammado312 c + gamma332 c * gammado313 c - gamma331 c *
    (gammado323 c + gammado332 c)) * ginv23 c + (gamma133 c * gammado113 c - gamma131 c * gammado133 c + gamma233 c
    * gammado213 c - gamma231 c * gammado233 c + gamma333 c * gammado313 c - gamma331 c * gammado333 c) * ginv33 c

/-- Lines 1594-1612. -/
def R22 (c : AdmConPt 𝔽) : 𝔽 :=
  (deldelg1212 c + 1 / 2 * (-deldelg1122 c - deldelg2211 c) - gamma122 c * gammado111 c + gamma121 c *
    gammado121 c - gamma222 c * gammado211 c + gamma221 c * gammado221 c - gamma322 c * gammado311 c + gamma321 c *
    gammado321 c) * ginv11 c + (-(gamma122 c * gammado112 c) + gamma121 c * gammado122 c - gamma222 c * gammado212 c
    + gamma221 c * gammado222 c - gamma322 c * gammado312 c + gamma321 c * gammado322 c) * ginv12 c + (deldelg1223 c
    - deldelg1322 c - deldelg2213 c + deldelg2312 c + gamma123 c * gammado121 c + gamma121 c * gammado123 c -
    gamma122 c * (gammado113 c + gammado131 c) + gamma223 c * gammado221 c + gamma221 c * gammado223 c - gamma222 c
    * (gammado213 c + gammado231 c) + gamma323 c * gammado321 c + gamma321 c * gammado323 c - gamma322 c *
    (gammado313 c + gammado331 c)) * ginv13 c + (gamma123 c * gammado122 c - gamma122 c * gammado132 c + gamma223 c
    * gammado222 c - gamma222 c * gammado232 c + gamma323 c * gammado322 c - gamma322 c * gammado332 c) * ginv23 c +
    (deldelg2323 c + 1 / 2 * (-deldelg2233 c - deldelg3322 c) + gamma123 c * gammado123 c - gamma122 c *
    gammado133 c + gamma223 c * gammado223 c - gamma222 c * gammado233 c + gamma323 c * gammado323 c - gamma322 c *
    gammado333 c) * ginv33 c

/-- Lines 1614-1633. -/
def R23_0 (c : AdmConPt 𝔽) : 𝔽 :=
  (1 / 2 * (-deldelg1123 c + deldelg1213 c + deldelg1312 c - deldelg2311 c) - gamma123 c * gammado111 c +
    gamma121 c * gammado131 c - gamma223 c * gammado211 c + gamma221 c * gammado231 c - gamma323 c * gammado311 c +
    gamma321 c * gammado331 c) * ginv11 c + (1 / 2 * (-deldelg1223 c + deldelg1322 c + deldelg2213 c -
    deldelg2312 c) - gamma123 c * (gammado112 c + gammado121 c) + gamma122 c * gammado131 c + gamma121 c *
    gammado132 c - gamma223 c * (gammado212 c + gammado221 c) + gamma222 c * gammado231 c + gamma221 c *
    gammado232 c - gamma323 c * (gammado312 c + gammado321 c) + gamma322 c * gammado331 c + gamma321 c *
    gammado332 c) * ginv12 c + (1 / 2 * (deldelg1233 c - deldelg1323 c - deldelg2313 c + deldelg3312 c) - gamma123 c
    * gammado113 c + gamma121 c * gammado133 c - gamma223 c * gammado213 c + gamma221 c * gammado233 c - gamma323 c
    * gammado313 c + gamma321 c * gammado333 c) * ginv13 c + (-(gamma123 c * gammado122 c) + gamma122 c *
    gammado132 c - gamma223 c * gammado222 c + gamma222 c * gammado232 c - gamma323 c * gammado322 c + gamma322 c *
    gammado332 c) * ginv22 c + (-deldelg2323 c + 1 / 2 * (deldelg2233 c + deldelg3322 c) - gamma123 c * gammado123 c
    + gamma122 c * gammado133 c - gamma223 c * gammado223 c + gamma222 c * gammado233 c - gamma323 c * gammado323 c
    + gamma322 c * gammado333 c) * ginv23 c

/-- Lines 1635-1654. -/
def R23 (c : AdmConPt 𝔽) : 𝔽 :=
  (1 / 2 * (-deldelg1123 c + deldelg1213 c + deldelg1312 c - deldelg2311 c) - gamma132 c * gammado111 c +
    gamma131 c * gammado121 c - gamma232 c * gammado211 c + gamma231 c * gammado221 c - gamma332 c * gammado311 c +
    gamma331 c * gammado321 c) * ginv11 c + (1 / 2 * (-deldelg1223 c + deldelg1322 c + deldelg2213 c -
    deldelg2312 c) - gamma132 c * gammado112 c + gamma131 c * gammado122 c - gamma232 c * gammado212 c + gamma231 c
    * gammado222 c - gamma332 c * gammado312 c + gamma331 c * gammado322 c) * ginv12 c + (1 / 2 * (deldelg1233 c -
    deldelg1323 c - deldelg2313 c + deldelg3312 c) + gamma133 c * gammado121 c + gamma131 c * gammado123 c -
    gamma132 c * (gammado113 c + gammado131 c) + gamma233 c * gammado221 c + gamma231 c * gammado223 c - gamma232 c
    * (gammado213 c + gammado231 c) + gamma333 c * gammado321 c + gamma331 c * gammado323 c - gamma332 c *
    (gammado313 c + gammado331 c)) * ginv13 c + (-deldelg2323 c + 1 / 2 * (deldelg2233 c + deldelg3322 c) +
    gamma133 c * gammado122 c - gamma132 c * gammado132 c + gamma233 c * gammado222 c - gamma232 c * gammado232 c +
    gamma333 c * gammado322 c - gamma332 c * gammado332 c) * ginv23 c + (gamma133 c * gammado123 c - gamma132 c *
    gammado133 c + gamma233 c * gammado223 c - gamma232 c * gammado233 c + gamma333 c * gammado323 c - gamma332 c *
    gammado333 c) * ginv33 c

/-- Lines 1656-1674. -/
def R33 (c : AdmConPt 𝔽) : 𝔽 :=
  (deldelg1313 c + 1 / 2 * (-deldelg1133 c - deldelg3311 c) - gamma133 c * gammado111 c + gamma131 c *
    gammado131 c - gamma233 c * gammado211 c + gamma231 c * gammado231 c - gamma333 c * gammado311 c + gamma331 c *
    gammado331 c) * ginv11 c + (-deldelg1233 c + deldelg1323 c + deldelg2313 c - deldelg3312 c - gamma133 c *
    (gammado112 c + gammado121 c) + gamma132 c * gammado131 c + gamma131 c * gammado132 c - gamma233 c *
    (gammado212 c + gammado221 c) + gamma232 c * gammado231 c + gamma231 c * gammado232 c - gamma333 c *
    (gammado312 c + gammado321 c) + gamma332 c * gammado331 c + gamma331 c * gammado332 c) * ginv12 c +
    (-(gamma133 c * gammado113 c) + gamma131 c * gammado133 c - gamma233 c * gammado213 c + gamma231 c *
    gammado233 c - gamma333 c * gammado313 c + gamma331 c * gammado333 c) * ginv13 c + (deldelg2323 c + 1 / 2 *
    (-deldelg2233 c - deldelg3322 c) - gamma133 c * gammado122 c + gamma132 c * gammado132 c - gamma233 c *
    gammado222 c + gamma232 c * gammado232 c - gamma333 c * gammado322 c + gamma332 c * gammado332 c) * ginv22 c +
    (-(gamma133 c * gammado123 c) + gamma132 c * gammado133 c - gamma233 c * gammado223 c + gamma232 c *
    gammado233 c - gamma333 c * gammado323 c + gamma332 c * gammado333 c) * ginv23 c

/-- Lines 1676-1680. -/
def R (c : AdmConPt 𝔽) : 𝔽 :=
  ginv11 c * R11 c + ginv22 c * R22 c + 2 * (ginv12 c * R12 c + ginv13 c * R13 c + ginv23 c * R23 c) + ginv33 c *
    R33 c

/-- Lines 1682-1685. -/
def Kud11 (c : AdmConPt 𝔽) : 𝔽 := ginv11 c * K11 c + ginv12 c * K12 c + ginv13 c * K13 c

/-- Lines 1687-1690. -/
def Kud12 (c : AdmConPt 𝔽) : 𝔽 := ginv11 c * K12 c + ginv12 c * K22 c + ginv13 c * K23 c

/-- Lines 1692-1695. -/
def Kud13 (c : AdmConPt 𝔽) : 𝔽 := ginv11 c * K13 c + ginv12 c * K23 c + ginv13 c * K33 c

/-- Lines 1697-1700. -/
def Kud21 (c : AdmConPt 𝔽) : 𝔽 := ginv12 c * K11 c + ginv22 c * K12 c + ginv23 c * K13 c

/-- Lines 1702-1705. -/
def Kud22 (c : AdmConPt 𝔽) : 𝔽 := ginv12 c * K12 c + ginv22 c * K22 c + ginv23 c * K23 c

/-- Lines 1707-1710. -/
def Kud23 (c : AdmConPt 𝔽) : 𝔽 := ginv12 c * K13 c + ginv22 c * K23 c + ginv23 c * K33 c

/-- Lines 1712-1715. -/
def Kud31 (c : AdmConPt 𝔽) : 𝔽 := ginv13 c * K11 c + ginv23 c * K12 c + ginv33 c * K13 c

/-- Lines 1717-1720. -/
def Kud32 (c : AdmConPt 𝔽) : 𝔽 := ginv13 c * K12 c + ginv23 c * K22 c + ginv33 c * K23 c

/-- Lines 1722-1725. -/
def Kud33 (c : AdmConPt 𝔽) : 𝔽 := ginv13 c * K13 c + ginv23 c * K23 c + ginv33 c * K33 c

/-- Lines 1727-1730. -/
def K (c : AdmConPt 𝔽) : 𝔽 := Kud11 c + Kud22 c + Kud33 c

/-- Lines 1732-1736. -/
def KudKud (c : AdmConPt 𝔽) : 𝔽 :=
  2 * (Kud12 c * Kud21 c + Kud13 c * Kud31 c + Kud23 c * Kud32 c) + Kud11 c ^ 2 + Kud22 c ^ 2 + Kud33 c ^ 2

/-- Lines 1738-1741. -/
def codelK111 (c : AdmConPt 𝔽) : 𝔽 := delK111 c - 2 * (gamma111 c * K11 c + gamma211 c * K12 c + gamma311 c * K13 c)

/-- Lines 1743-1747. -/
def codelK112 (c : AdmConPt 𝔽) : 𝔽 :=
  delK112 c - gamma112 c * K11 c - (gamma111 c + gamma212 c) * K12 c - gamma312 c * K13 c - gamma211 c * K22 c -
    gamma311 c * K23 c

/-- Lines 1749-1753. -/
def codelK113 (c : AdmConPt 𝔽) : 𝔽 :=
  delK113 c - gamma113 c * K11 c - gamma213 c * K12 c - (gamma111 c + gamma313 c) * K13 c - gamma211 c * K23 c -
    gamma311 c * K33 c

/-- Lines 1755-1758. -/
def codelK122 (c : AdmConPt 𝔽) : 𝔽 := delK122 c - 2 * (gamma112 c * K12 c + gamma212 c * K22 c + gamma312 c * K23 c)

/-- Lines 1760-1764. -/
def codelK123 (c : AdmConPt 𝔽) : 𝔽 :=
  delK123 c - gamma113 c * K12 c - gamma112 c * K13 c - gamma213 c * K22 c - (gamma212 c + gamma313 c) * K23 c -
    gamma312 c * K33 c

/-- Lines 1766-1769. -/
def codelK133 (c : AdmConPt 𝔽) : 𝔽 := delK133 c - 2 * (gamma113 c * K13 c + gamma213 c * K23 c + gamma313 c * K33 c)

/-- Lines 1771-1774. -/
def codelK211 (c : AdmConPt 𝔽) : 𝔽 := delK211 c - 2 * (gamma121 c * K11 c + gamma221 c * K12 c + gamma321 c * K13 c)

/-- Lines 1776-1780. -/
def codelK212 (c : AdmConPt 𝔽) : 𝔽 :=
  delK212 c - gamma122 c * K11 c - (gamma121 c + gamma222 c) * K12 c - gamma322 c * K13 c - gamma221 c * K22 c -
    gamma321 c * K23 c

/-- Lines 1782-1786. -/
def codelK213 (c : AdmConPt 𝔽) : 𝔽 :=
  delK213 c - gamma123 c * K11 c - gamma223 c * K12 c - (gamma121 c + gamma323 c) * K13 c - gamma221 c * K23 c -
    gamma321 c * K33 c

/-- Lines 1788-1791. -/
def codelK222 (c : AdmConPt 𝔽) : 𝔽 := delK222 c - 2 * (gamma122 c * K12 c + gamma222 c * K22 c + gamma322 c * K23 c)

/-- Lines 1793-1797. -/
def codelK223 (c : AdmConPt 𝔽) : 𝔽 :=
  delK223 c - gamma123 c * K12 c - gamma122 c * K13 c - gamma223 c * K22 c - (gamma222 c + gamma323 c) * K23 c -
    gamma322 c * K33 c

/-- Lines 1799-1802. -/
def codelK233 (c : AdmConPt 𝔽) : 𝔽 := delK233 c - 2 * (gamma123 c * K13 c + gamma223 c * K23 c + gamma323 c * K33 c)

/-- Lines 1804-1807. -/
def codelK311 (c : AdmConPt 𝔽) : 𝔽 := delK311 c - 2 * (gamma131 c * K11 c + gamma231 c * K12 c + gamma331 c * K13 c)

/-- Lines 1809-1813. -/
def codelK312 (c : AdmConPt 𝔽) : 𝔽 :=
  delK312 c - gamma132 c * K11 c - (gamma131 c + gamma232 c) * K12 c - gamma332 c * K13 c - gamma231 c * K22 c -
    gamma331 c * K23 c

/-- Lines 1815-1819. -/
def codelK313 (c : AdmConPt 𝔽) : 𝔽 :=
  delK313 c - gamma133 c * K11 c - gamma233 c * K12 c - (gamma131 c + gamma333 c) * K13 c - gamma231 c * K23 c -
    gamma331 c * K33 c

/-- Lines 1821-1824. -/
def codelK322 (c : AdmConPt 𝔽) : 𝔽 := delK322 c - 2 * (gamma132 c * K12 c + gamma232 c * K22 c + gamma332 c * K23 c)

/-- Lines 1826-1830. -/
def codelK323 (c : AdmConPt 𝔽) : 𝔽 :=
  delK323 c - gamma133 c * K12 c - gamma132 c * K13 c - gamma233 c * K22 c - (gamma232 c + gamma333 c) * K23 c -
    gamma332 c * K33 c

/-- Lines 1832-1835. -/
def codelK333 (c : AdmConPt 𝔽) : 𝔽 := delK333 c - 2 * (gamma133 c * K13 c + gamma233 c * K23 c + gamma333 c * K33 c)

/-- Lines 1837-1840. -/
def cdKudd111 (c : AdmConPt 𝔽) : 𝔽 := codelK111 c * ginv11 c + codelK211 c * ginv12 c + codelK311 c * ginv13 c

/-- Lines 1842-1845. -/
def cdKudd112 (c : AdmConPt 𝔽) : 𝔽 := codelK112 c * ginv11 c + codelK212 c * ginv12 c + codelK312 c * ginv13 c

/-- Lines 1847-1850. -/
def cdKudd113 (c : AdmConPt 𝔽) : 𝔽 := codelK113 c * ginv11 c + codelK213 c * ginv12 c + codelK313 c * ginv13 c

/-- Lines 1852-1855. -/
def cdKudd122 (c : AdmConPt 𝔽) : 𝔽 := codelK122 c * ginv11 c + codelK222 c * ginv12 c + codelK322 c * ginv13 c

/-- Lines 1857-1860. -/
def cdKudd123 (c : AdmConPt 𝔽) : 𝔽 := codelK123 c * ginv11 c + codelK223 c * ginv12 c + codelK323 c * ginv13 c

/-- Lines 1862-1865. -/
def cdKudd133 (c : AdmConPt 𝔽) : 𝔽 := codelK133 c * ginv11 c + codelK233 c * ginv12 c + codelK333 c * ginv13 c

/-- Lines 1867-1870. -/
def cdKudd211 (c : AdmConPt 𝔽) : 𝔽 := codelK111 c * ginv12 c + codelK211 c * ginv22 c + codelK311 c * ginv23 c

/-- Lines 1872-1875. -/
def cdKudd212 (c : AdmConPt 𝔽) : 𝔽 := codelK112 c * ginv12 c + codelK212 c * ginv22 c + codelK312 c * ginv23 c

/-- Lines 1877-1880. -/
def cdKudd213 (c : AdmConPt 𝔽) : 𝔽 := codelK113 c * ginv12 c + codelK213 c * ginv22 c + codelK313 c * ginv23 c

/-- Lines 1882-1885. -/
def cdKudd222 (c : AdmConPt 𝔽) : 𝔽 := codelK122 c * ginv12 c + codelK222 c * ginv22 c + codelK322 c * ginv23 c

/-- Lines 1887-1890. -/
def cdKudd223 (c : AdmConPt 𝔽) : 𝔽 := codelK123 c * ginv12 c + codelK223 c * ginv22 c + codelK323 c * ginv23 c

/-- Lines 1892-1895. -/
def cdKudd233 (c : AdmConPt 𝔽) : 𝔽 := codelK133 c * ginv12 c + codelK233 c * ginv22 c + codelK333 c * ginv23 c

/-- Lines 1897-1900. -/
def cdKudd311 (c : AdmConPt 𝔽) : 𝔽 := codelK111 c * ginv13 c + codelK211 c * ginv23 c + codelK311 c * ginv33 c

/-- Lines 1902-1905. -/
def cdKudd312 (c : AdmConPt 𝔽) : 𝔽 := codelK112 c * ginv13 c + codelK212 c * ginv23 c + codelK312 c * ginv33 c

/-- Lines 1907-1910. -/
def cdKudd313 (c : AdmConPt 𝔽) : 𝔽 := codelK113 c * ginv13 c + codelK213 c * ginv23 c + codelK313 c * ginv33 c

/-- Lines 1912-1915. -/
def cdKudd322 (c : AdmConPt 𝔽) : 𝔽 := codelK122 c * ginv13 c + codelK222 c * ginv23 c + codelK322 c * ginv33 c

/-- Lines 1917-1920. -/
def cdKudd323 (c : AdmConPt 𝔽) : 𝔽 := codelK123 c * ginv13 c + codelK223 c * ginv23 c + codelK323 c * ginv33 c

/-- Lines 1922-1925. -/
def cdKudd333 (c : AdmConPt 𝔽) : 𝔽 := codelK133 c * ginv13 c + codelK233 c * ginv23 c + codelK333 c * ginv33 c

/-- Lines 1930-1933. -/
def hamrhs_0 (_c : AdmConPt 𝔽) : 𝔽 := 0

/-- Lines 1938-1941. -/
def hamrhs_1 (c : AdmConPt 𝔽) : 𝔽 := 16 * c.pi * rho c

/-- Lines 1928-1944. -/
def hamrhs (c : AdmConPt 𝔽) : 𝔽 := if c.rhoNull then hamrhs_0 c else hamrhs_1 c

/-- Lines 1949-1952. -/
def momrhs1_0 (_c : AdmConPt 𝔽) : 𝔽 := 0

/-- Lines 1954-1957. -/
def momrhs2_0 (_c : AdmConPt 𝔽) : 𝔽 := 0

/-- Lines 1959-1962. -/
def momrhs3_0 (_c : AdmConPt 𝔽) : 𝔽 := 0

/-- Lines 1967-1970. -/
def momrhs1_1 (c : AdmConPt 𝔽) : 𝔽 := 8 * c.pi * j1 c

/-- Lines 1947-1983. -/
def momrhs1 (c : AdmConPt 𝔽) : 𝔽 := if c.jNull then momrhs1_0 c else momrhs1_1 c

/-- Lines 1972-1975. -/
def momrhs2_1 (c : AdmConPt 𝔽) : 𝔽 := 8 * c.pi * j2 c

/-- Lines 1947-1983. -/
def momrhs2 (c : AdmConPt 𝔽) : 𝔽 := if c.jNull then momrhs2_0 c else momrhs2_1 c

/-- Lines 1977-1980. -/
def momrhs3_1 (c : AdmConPt 𝔽) : 𝔽 := 8 * c.pi * j3 c

/-- Lines 1947-1983. -/
def momrhs3 (c : AdmConPt 𝔽) : 𝔽 := if c.jNull then momrhs3_0 c else momrhs3_1 c

/-- Lines 1985-1988. -/
def ham (c : AdmConPt 𝔽) : 𝔽 := -hamrhs c - KudKud c + R c + K c ^ 2

/-- Lines 1990-1996. -/
def momu1 (c : AdmConPt 𝔽) : 𝔽 :=
  (cdKudd212 c + cdKudd313 c) * ginv11 c + (-cdKudd112 c + cdKudd222 c + cdKudd323 c) * ginv12 c + (-cdKudd113 c +
    cdKudd223 c + cdKudd333 c) * ginv13 c - cdKudd122 c * ginv22 c - 2 * cdKudd123 c * ginv23 c - cdKudd133 c *
    ginv33 c

/-- Lines 1998-2003. -/
def momu2 (c : AdmConPt 𝔽) : 𝔽 :=
  -(cdKudd211 c * ginv11 c) + (cdKudd111 c - cdKudd212 c + cdKudd313 c) * ginv12 c - 2 * cdKudd213 c * ginv13 c +
    (cdKudd112 c + cdKudd323 c) * ginv22 c + (cdKudd113 c - cdKudd223 c + cdKudd333 c) * ginv23 c - cdKudd233 c *
    ginv33 c

/-- Lines 2005-2010. -/
def momu3 (c : AdmConPt 𝔽) : 𝔽 :=
  -(cdKudd311 c * ginv11 c) - 2 * cdKudd312 c * ginv12 c + (cdKudd111 c + cdKudd212 c - cdKudd313 c) * ginv13 c -
    cdKudd322 c * ginv22 c + (cdKudd112 c + cdKudd222 c - cdKudd323 c) * ginv23 c + (cdKudd113 c + cdKudd223 c) *
    ginv33 c

/-- Lines 2012-2015. -/
def mom1 (c : AdmConPt 𝔽) : 𝔽 := -momrhs1 c + f c * (momu1 c * g11 c + momu2 c * g12 c + momu3 c * g13 c)

/-- Lines 2017-2020. -/
def mom2 (c : AdmConPt 𝔽) : 𝔽 := -momrhs2 c + f c * (momu1 c * g12 c + momu2 c * g22 c + momu3 c * g23 c)

/-- Lines 2022-2025. -/
def mom3 (c : AdmConPt 𝔽) : 𝔽 := -momrhs3 c + f c * (momu1 c * g13 c + momu2 c * g23 c + momu3 c * g33 c)

/-- Lines 2027-2030. -/
def trK (c : AdmConPt 𝔽) : 𝔽 := K c

/-- Lines 2032-2036. -/
def cdda11 (c : AdmConPt 𝔽) : 𝔽 :=
  -(gamma111 c * dalp1 c) - gamma211 c * dalp2 c - gamma311 c * dalp3 c + ddalp11 c

/-- Lines 2038-2042. -/
def cdda12 (c : AdmConPt 𝔽) : 𝔽 :=
  -(gamma112 c * dalp1 c) - gamma212 c * dalp2 c - gamma312 c * dalp3 c + ddalp12 c

/-- Lines 2044-2048. -/
def cdda13 (c : AdmConPt 𝔽) : 𝔽 :=
  -(gamma113 c * dalp1 c) - gamma213 c * dalp2 c - gamma313 c * dalp3 c + ddalp13 c

/-- Lines 2050-2054. -/
def cdda21 (c : AdmConPt 𝔽) : 𝔽 :=
  -(gamma121 c * dalp1 c) - gamma221 c * dalp2 c - gamma321 c * dalp3 c + ddalp12 c

/-- Lines 2056-2060. -/
def cdda22 (c : AdmConPt 𝔽) : 𝔽 :=
  -(gamma122 c * dalp1 c) - gamma222 c * dalp2 c - gamma322 c * dalp3 c + ddalp22 c

/-- Lines 2062-2066. -/
def cdda23 (c : AdmConPt 𝔽) : 𝔽 :=
  -(gamma123 c * dalp1 c) - gamma223 c * dalp2 c - gamma323 c * dalp3 c + ddalp23 c

/-- Lines 2068-2072. -/
def cdda31 (c : AdmConPt 𝔽) : 𝔽 :=
  -(gamma131 c * dalp1 c) - gamma231 c * dalp2 c - gamma331 c * dalp3 c + ddalp13 c

/-- Lines 2074-2078. -/
def cdda32 (c : AdmConPt 𝔽) : 𝔽 :=
  -(gamma132 c * dalp1 c) - gamma232 c * dalp2 c - gamma332 c * dalp3 c + ddalp23 c

/-- Lines 2080-2084. -/
def cdda33 (c : AdmConPt 𝔽) : 𝔽 :=
  -(gamma133 c * dalp1 c) - gamma233 c * dalp2 c - gamma333 c * dalp3 c + ddalp33 c

/-- Lines 2086-2090. -/
def trcdda (c : AdmConPt 𝔽) : 𝔽 :=
  cdda11 c * ginv11 c + (cdda12 c + cdda21 c) * ginv12 c + (cdda13 c + cdda31 c) * ginv13 c + cdda22 c * ginv22 c
    + (cdda23 c + cdda32 c) * ginv23 c + cdda33 c * ginv33 c

/-- Lines 2092-2097. -/
def dtrK1 (c : AdmConPt 𝔽) : 𝔽 :=
  codelK111 c * ginv11 c + codelK122 c * ginv22 c + 2 * (codelK112 c * ginv12 c + codelK113 c * ginv13 c +
    codelK123 c * ginv23 c) + codelK133 c * ginv33 c

/-- Lines 2099-2104. -/
def dtrK2 (c : AdmConPt 𝔽) : 𝔽 :=
  codelK211 c * ginv11 c + codelK222 c * ginv22 c + 2 * (codelK212 c * ginv12 c + codelK213 c * ginv13 c +
    codelK223 c * ginv23 c) + codelK233 c * ginv33 c

/-- Lines 2106-2111. -/
def dtrK3 (c : AdmConPt 𝔽) : 𝔽 :=
  codelK311 c * ginv11 c + codelK322 c * ginv22 c + 2 * (codelK312 c * ginv12 c + codelK313 c * ginv13 c +
    codelK323 c * ginv23 c) + codelK333 c * ginv33 c

/-- Lines 2113-2116. -/
def betadtrK (c : AdmConPt 𝔽) : 𝔽 := dtrK1 c * beta1 c + dtrK2 c * beta2 c + dtrK3 c * beta3 c

/-- Lines 2121-2124. -/
def Sminus3rho_0 (_c : AdmConPt 𝔽) : 𝔽 := 0

/-- Lines 2129-2133. -/
def Sminus3rho_1 (c : AdmConPt 𝔽) : 𝔽 :=
  (-3) * rho c + ginv11 c * S11 c + ginv22 c * S22 c + 2 * (ginv12 c * S12 c + ginv13 c * S13 c + ginv23 c *
    S23 c) + ginv33 c * S33 c

/-- Lines 2119-2136. -/
def Sminus3rho (c : AdmConPt 𝔽) : 𝔽 := if c.sNull then Sminus3rho_0 c else Sminus3rho_1 c

/-- Lines 2138-2141. -/
def dtrKdt (c : AdmConPt 𝔽) : 𝔽 := betadtrK c - trcdda c + alpha c * (R c + 4 * c.pi * Sminus3rho c + K c ^ 2)

/-- Lines 2153-2158. -/
def RA11 (c : AdmConPt 𝔽) : 𝔽 :=
  -(deldelg1111 c * ginv11 c) - deldelg2211 c * ginv22 c - 2 * (deldelg1211 c * ginv12 c + deldelg1311 c *
    ginv13 c + deldelg2311 c * ginv23 c) - deldelg3311 c * ginv33 c

/-- Lines 2160-2165. -/
def RA12 (c : AdmConPt 𝔽) : 𝔽 :=
  -(deldelg1112 c * ginv11 c) - deldelg2212 c * ginv22 c - 2 * (deldelg1212 c * ginv12 c + deldelg1312 c *
    ginv13 c + deldelg2312 c * ginv23 c) - deldelg3312 c * ginv33 c

/-- Lines 2167-2172. -/
def RA13 (c : AdmConPt 𝔽) : 𝔽 :=
  -(deldelg1113 c * ginv11 c) - deldelg2213 c * ginv22 c - 2 * (deldelg1213 c * ginv12 c + deldelg1313 c *
    ginv13 c + deldelg2313 c * ginv23 c) - deldelg3313 c * ginv33 c

/-- Lines 2174-2179. -/
def RA22 (c : AdmConPt 𝔽) : 𝔽 :=
  -(deldelg1122 c * ginv11 c) - deldelg2222 c * ginv22 c - 2 * (deldelg1222 c * ginv12 c + deldelg1322 c *
    ginv13 c + deldelg2322 c * ginv23 c) - deldelg3322 c * ginv33 c

/-- Lines 2181-2186. -/
def RA23 (c : AdmConPt 𝔽) : 𝔽 :=
  -(deldelg1123 c * ginv11 c) - deldelg2223 c * ginv22 c - 2 * (deldelg1223 c * ginv12 c + deldelg1323 c *
    ginv13 c + deldelg2323 c * ginv23 c) - deldelg3323 c * ginv33 c

/-- Lines 2188-2193. -/
def RA33 (c : AdmConPt 𝔽) : 𝔽 :=
  -(deldelg1133 c * ginv11 c) - deldelg2233 c * ginv22 c - 2 * (deldelg1233 c * ginv12 c + deldelg1333 c *
    ginv13 c + deldelg2333 c * ginv23 c) - deldelg3333 c * ginv33 c

/-- Lines 2195-2200. -/
def RB11 (c : AdmConPt 𝔽) : 𝔽 :=
  deldelg1111 c * ginv11 c + (deldelg1112 c + deldelg1211 c) * ginv12 c + (deldelg1113 c + deldelg1311 c) *
    ginv13 c + deldelg1212 c * ginv22 c + (deldelg1213 c + deldelg1312 c) * ginv23 c + deldelg1313 c * ginv33 c

/-- Lines 2202-2207. -/
def RB12_0 (c : AdmConPt 𝔽) : 𝔽 :=
  deldelg1112 c * ginv11 c + (deldelg1122 c + deldelg1212 c) * ginv12 c + (deldelg1123 c + deldelg1312 c) *
    ginv13 c + deldelg1222 c * ginv22 c + (deldelg1223 c + deldelg1322 c) * ginv23 c + deldelg1323 c * ginv33 c

/-- Lines 2209-2214. -/
def RB12 (c : AdmConPt 𝔽) : 𝔽 :=
  deldelg1211 c * ginv11 c + (deldelg1212 c + deldelg2211 c) * ginv12 c + (deldelg1213 c + deldelg2311 c) *
    ginv13 c + deldelg2212 c * ginv22 c + (deldelg2213 c + deldelg2312 c) * ginv23 c + deldelg2313 c * ginv33 c

/-- Lines 2216-2221. -/
def RB13_0 (c : AdmConPt 𝔽) : 𝔽 :=
  deldelg1113 c * ginv11 c + (deldelg1123 c + deldelg1213 c) * ginv12 c + (deldelg1133 c + deldelg1313 c) *
    ginv13 c + deldelg1223 c * ginv22 c + (deldelg1233 c + deldelg1323 c) * ginv23 c + deldelg1333 c * ginv33 c

/-- Lines 2223-2228. -/
def RB13 (c : AdmConPt 𝔽) : 𝔽 :=
  deldelg1311 c * ginv11 c + (deldelg1312 c + deldelg2311 c) * ginv12 c + (deldelg1313 c + deldelg3311 c) *
    ginv13 c + deldelg2312 c * ginv22 c + (deldelg2313 c + deldelg3312 c) * ginv23 c + deldelg3313 c * ginv33 c

/-- Lines 2230-2235. -/
def RB22 (c : AdmConPt 𝔽) : 𝔽 :=
  deldelg1212 c * ginv11 c + (deldelg1222 c + deldelg2212 c) * ginv12 c + (deldelg1223 c + deldelg2312 c) *
    ginv13 c + deldelg2222 c * ginv22 c + (deldelg2223 c + deldelg2322 c) * ginv23 c + deldelg2323 c * ginv33 c

/-- Lines 2237-2242. -/
def RB23_0 (c : AdmConPt 𝔽) : 𝔽 :=
  deldelg1213 c * ginv11 c + (deldelg1223 c + deldelg2213 c) * ginv12 c + (deldelg1233 c + deldelg2313 c) *
    ginv13 c + deldelg2223 c * ginv22 c + (deldelg2233 c + deldelg2323 c) * ginv23 c + deldelg2333 c * ginv33 c

/-- Lines 2244-2249. -/
def RB23 (c : AdmConPt 𝔽) : 𝔽 :=
  deldelg1312 c * ginv11 c + (deldelg1322 c + deldelg2312 c) * ginv12 c + (deldelg1323 c + deldelg3312 c) *
    ginv13 c + deldelg2322 c * ginv22 c + (deldelg2323 c + deldelg3322 c) * ginv23 c + deldelg3323 c * ginv33 c

/-- Lines 2251-2256. -/
def RB33 (c : AdmConPt 𝔽) : 𝔽 :=
  deldelg1313 c * ginv11 c + (deldelg1323 c + deldelg2313 c) * ginv12 c + (deldelg1333 c + deldelg3313 c) *
    ginv13 c + deldelg2323 c * ginv22 c + (deldelg2333 c + deldelg3323 c) * ginv23 c + deldelg3333 c * ginv33 c

/-- Lines 2258-2269. -/
def RC11 (c : AdmConPt 𝔽) : 𝔽 :=
  (gamma111 c * gammado111 c + gamma211 c * gammado211 c + gamma311 c * gammado311 c) * ginv11 c + (gamma112 c *
    gammado111 c + gamma111 c * gammado112 c + gamma212 c * gammado211 c + gamma211 c * gammado212 c + gamma312 c *
    gammado311 c + gamma311 c * gammado312 c) * ginv12 c + (gamma113 c * gammado111 c + gamma111 c * gammado113 c +
    gamma213 c * gammado211 c + gamma211 c * gammado213 c + gamma313 c * gammado311 c + gamma311 c * gammado313 c) *
    ginv13 c + (gamma112 c * gammado112 c + gamma212 c * gammado212 c + gamma312 c * gammado312 c) * ginv22 c +
    (gamma113 c * gammado112 c + gamma112 c * gammado113 c + gamma213 c * gammado212 c + gamma212 c * gammado213 c +
    gamma313 c * gammado312 c + gamma312 c * gammado313 c) * ginv23 c + (gamma113 c * gammado113 c + gamma213 c *
    gammado213 c + gamma313 c * gammado313 c) * ginv33 c

/-- Lines 2271-2282. -/
def RC12_0 (c : AdmConPt 𝔽) : 𝔽 :=
  (gamma121 c * gammado111 c + gamma221 c * gammado211 c + gamma321 c * gammado311 c) * ginv11 c + (gamma122 c *
    gammado111 c + gamma121 c * gammado112 c + gamma222 c * gammado211 c + gamma221 c * gammado212 c + gamma322 c *
    gammado311 c + gamma321 c * gammado312 c) * ginv12 c + (gamma123 c * gammado111 c + gamma121 c * gammado113 c +
    gamma223 c * gammado211 c + gamma221 c * gammado213 c + gamma323 c * gammado311 c + gamma321 c * gammado313 c) *
    ginv13 c + (gamma122 c * gammado112 c + gamma222 c * gammado212 c + gamma322 c * gammado312 c) * ginv22 c +
    (gamma123 c * gammado112 c + gamma122 c * gammado113 c + gamma223 c * gammado212 c + gamma222 c * gammado213 c +
    gamma323 c * gammado312 c + gamma322 c * gammado313 c) * ginv23 c + (gamma123 c * gammado113 c + gamma223 c *
    gammado213 c + gamma323 c * gammado313 c) * ginv33 c

/-- Lines 2284-2295. -/
def RC12 (c : AdmConPt 𝔽) : 𝔽 :=
  (gamma111 c * gammado121 c + gamma211 c * gammado221 c + gamma311 c * gammado321 c) * ginv11 c + (gamma112 c *
    gammado121 c + gamma111 c * gammado122 c + gamma212 c * gammado221 c + gamma211 c * gammado222 c + gamma312 c *
    gammado321 c + gamma311 c * gammado322 c) * ginv12 c + (gamma113 c * gammado121 c + gamma111 c * gammado123 c +
    gamma213 c * gammado221 c + gamma211 c * gammado223 c + gamma313 c * gammado321 c + gamma311 c * gammado323 c) *
    ginv13 c + (gamma112 c * gammado122 c + gamma212 c * gammado222 c + gamma312 c * gammado322 c) * ginv22 c +
    (gamma113 c * gammado122 c + gamma112 c * gammado123 c + gamma213 c * gammado222 c + gamma212 c * gammado223 c +
    gamma313 c * gammado322 c + gamma312 c * gammado323 c) * ginv23 c + (gamma113 c * gammado123 c + gamma213 c *
    gammado223 c + gamma313 c * gammado323 c) * ginv33 c

/-- Lines 2297-2308. -/
def RC13_0 (c : AdmConPt 𝔽) : 𝔽 :=
  (gamma131 c * gammado111 c + gamma231 c * gammado211 c + gamma331 c * gammado311 c) * ginv11 c + (gamma132 c *
    gammado111 c + gamma131 c * gammado112 c + gamma232 c * gammado211 c + gamma231 c * gammado212 c + gamma332 c *
    gammado311 c + gamma331 c * gammado312 c) * ginv12 c + (gamma133 c * gammado111 c + gamma131 c * gammado113 c +
    gamma233 c * gammado211 c + gamma231 c * gammado213 c + gamma333 c * gammado311 c + gamma331 c * gammado313 c) *
    ginv13 c + (gamma132 c * gammado112 c + gamma232 c * gammado212 c + gamma332 c * gammado312 c) * ginv22 c +
    (gamma133 c * gammado112 c + gamma132 c * gammado113 c + gamma233 c * gammado212 c + gamma232 c * gammado213 c +
    gamma333 c * gammado312 c + gamma332 c * gammado313 c) * ginv23 c + (gamma133 c * gammado113 c + gamma233 c *
    gammado213 c + gamma333 c * gammado313 c) * ginv33 c

/-- Lines 2310-2321. -/
def RC13 (c : AdmConPt 𝔽) : 𝔽 :=
  (gamma111 c * gammado131 c + gamma211 c * gammado231 c + gamma311 c * gammado331 c) * ginv11 c + (gamma112 c *
    gammado131 c + gamma111 c * gammado132 c + gamma212 c * gammado231 c + gamma211 c * gammado232 c + gamma312 c *
    gammado331 c + gamma311 c * gammado332 c) * ginv12 c + (gamma113 c * gammado131 c + gamma111 c * gammado133 c +
    gamma213 c * gammado231 c + gamma211 c * gammado233 c + gamma313 c * gammado331 c + gamma311 c * gammado333 c) *
    ginv13 c + (gamma112 c * gammado132 c + gamma212 c * gammado232 c + gamma312 c * gammado332 c) * ginv22 c +
    (gamma113 c * gammado132 c + gamma112 c * gammado133 c + gamma213 c * gammado232 c + gamma212 c * gammado233 c +
    gamma313 c * gammado332 c + gamma312 c * gammado333 c) * ginv23 c + (gamma113 c * gammado133 c + gamma213 c *
    gammado233 c + gamma313 c * gammado333 c) * ginv33 c

/-- Lines 2323-2334. -/
def RC22 (c : AdmConPt 𝔽) : 𝔽 :=
  (gamma121 c * gammado121 c + gamma221 c * gammado221 c + gamma321 c * gammado321 c) * ginv11 c + (gamma122 c *
    gammado121 c + gamma121 c * gammado122 c + gamma222 c * gammado221 c + gamma221 c * gammado222 c + gamma322 c *
    gammado321 c + gamma321 c * gammado322 c) * ginv12 c + (gamma123 c * gammado121 c + gamma121 c * gammado123 c +
    gamma223 c * gammado221 c + gamma221 c * gammado223 c + gamma323 c * gammado321 c + gamma321 c * gammado323 c) *
    ginv13 c + (gamma122 c * gammado122 c + gamma222 c * gammado222 c + gamma322 c * gammado322 c) * ginv22 c +
    (gamma123 c * gammado122 c + gamma122 c * gammado123 c + gamma223 c * gammado222 c + gamma222 c * gammado223 c +
    gamma323 c * gammado322 c + gamma322 c * gammado323 c) * ginv23 c + (gamma123 c * gammado123 c + gamma223 c *
    gammado223 c + gamma323 c * gammado323 c) * ginv33 c

/-- Lines 2336-2347. -/
def RC23_0 (c : AdmConPt 𝔽) : 𝔽 :=
  (gamma131 c * gammado121 c + gamma231 c * gammado221 c + gamma331 c * gammado321 c) * ginv11 c + (gamma132 c *
    gammado121 c + gamma131 c * gammado122 c + gamma232 c * gammado221 c + gamma231 c * gammado222 c + gamma332 c *
    gammado321 c + gamma331 c * gammado322 c) * ginv12 c + (gamma133 c * gammado121 c + gamma131 c * gammado123 c +
    gamma233 c * gammado221 c + gamma231 c * gammado223 c + gamma333 c * gammado321 c + gamma331 c * gammado323 c) *
    ginv13 c + (gamma132 c * gammado122 c + gamma232 c * gammado222 c + gamma332 c * gammado322 c) * ginv22 c +
    (gamma133 c * gammado122 c + gamma132 c * gammado123 c + gamma233 c * gammado222 c + gamma232 c * gammado223 c +
    gamma333 c * gammado322 c + gamma332 c * gammado323 c) * ginv23 c + (gamma133 c * gammado123 c + gamma233 c *
    gammado223 c + gamma333 c * gammado323 c) * ginv33 c

/-- Lines 2349-2360. -/
def RC23 (c : AdmConPt 𝔽) : 𝔽 :=
  (gamma121 c * gammado131 c + gamma221 c * gammado231 c + gamma321 c * gammado331 c) * ginv11 c + (gamma122 c *
    gammado131 c + gamma121 c * gammado132 c + gamma222 c * gammado231 c + gamma221 c * gammado232 c + gamma322 c *
    gammado331 c + gamma321 c * gammado332 c) * ginv12 c + (gamma123 c * gammado131 c + gamma121 c * gammado133 c +
    gamma223 c * gammado231 c + gamma221 c * gammado233 c + gamma323 c * gammado331 c + gamma321 c * gammado333 c) *
    ginv13 c + (gamma122 c * gammado132 c + gamma222 c * gammado232 c + gamma322 c * gammado332 c) * ginv22 c +
    (gamma123 c * gammado132 c + gamma122 c * gammado133 c + gamma223 c * gammado232 c + gamma222 c * gammado233 c +
    gamma323 c * gammado332 c + gamma322 c * gammado333 c) * ginv23 c + (gamma123 c * gammado133 c + gamma223 c *
    gammado233 c + gamma323 c * gammado333 c) * ginv33 c

/-- Lines 2362-2373. -/
def RC33 (c : AdmConPt 𝔽) : 𝔽 :=
  (gamma131 c * gammado131 c + gamma231 c * gammado231 c + gamma331 c * gammado331 c) * ginv11 c + (gamma132 c *
    gammado131 c + gamma131 c * gammado132 c + gamma232 c * gammado231 c + gamma231 c * gammado232 c + gamma332 c *
    gammado331 c + gamma331 c * gammado332 c) * ginv12 c + (gamma133 c * gammado131 c + gamma131 c * gammado133 c +
    gamma233 c * gammado231 c + gamma231 c * gammado233 c + gamma333 c * gammado331 c + gamma331 c * gammado333 c) *
    ginv13 c + (gamma132 c * gammado132 c + gamma232 c * gammado232 c + gamma332 c * gammado332 c) * ginv22 c +
    (gamma133 c * gammado132 c + gamma132 c * gammado133 c + gamma233 c * gammado232 c + gamma232 c * gammado233 c +
    gamma333 c * gammado332 c + gamma332 c * gammado333 c) * ginv23 c + (gamma133 c * gammado133 c + gamma233 c *
    gammado233 c + gamma333 c * gammado333 c) * ginv33 c

/-- Lines 2375-2389. -/
def RD11 (c : AdmConPt 𝔽) : 𝔽 :=
  -((gamma111 c * gammado111 c + gamma211 c * gammado211 c + gamma311 c * gammado311 c) * ginv11 c) - (gamma111 c
    * (gammado112 c + gammado121 c) + gamma211 c * (gammado212 c + gammado221 c) + gamma311 c * (gammado312 c +
    gammado321 c)) * ginv12 c - (gamma111 c * (gammado113 c + gammado131 c) + gamma211 c * (gammado213 c +
    gammado231 c) + gamma311 c * (gammado313 c + gammado331 c)) * ginv13 c - (gamma111 c * gammado122 c + gamma211 c
    * gammado222 c + gamma311 c * gammado322 c) * ginv22 c - (gamma111 c * (gammado123 c + gammado132 c) +
    gamma211 c * (gammado223 c + gammado232 c) + gamma311 c * (gammado323 c + gammado332 c)) * ginv23 c -
    (gamma111 c * gammado133 c + gamma211 c * gammado233 c + gamma311 c * gammado333 c) * ginv33 c

/-- Lines 2391-2405. -/
def RD12_0 (c : AdmConPt 𝔽) : 𝔽 :=
  -((gamma112 c * gammado111 c + gamma212 c * gammado211 c + gamma312 c * gammado311 c) * ginv11 c) - (gamma112 c
    * (gammado112 c + gammado121 c) + gamma212 c * (gammado212 c + gammado221 c) + gamma312 c * (gammado312 c +
    gammado321 c)) * ginv12 c - (gamma112 c * (gammado113 c + gammado131 c) + gamma212 c * (gammado213 c +
    gammado231 c) + gamma312 c * (gammado313 c + gammado331 c)) * ginv13 c - (gamma112 c * gammado122 c + gamma212 c
    * gammado222 c + gamma312 c * gammado322 c) * ginv22 c - (gamma112 c * (gammado123 c + gammado132 c) +
    gamma212 c * (gammado223 c + gammado232 c) + gamma312 c * (gammado323 c + gammado332 c)) * ginv23 c -
    (gamma112 c * gammado133 c + gamma212 c * gammado233 c + gamma312 c * gammado333 c) * ginv33 c

/-- Lines 2407-2421. -/
def RD12 (c : AdmConPt 𝔽) : 𝔽 :=
  -((gamma121 c * gammado111 c + gamma221 c * gammado211 c + gamma321 c * gammado311 c) * ginv11 c) - (gamma121 c
    * (gammado112 c + gammado121 c) + gamma221 c * (gammado212 c + gammado221 c) + gamma321 c * (gammado312 c +
    gammado321 c)) * ginv12 c - (gamma121 c * (gammado113 c + gammado131 c) + gamma221 c * (gammado213 c +
    gammado231 c) + gamma321 c * (gammado313 c + gammado331 c)) * ginv13 c - (gamma121 c * gammado122 c + gamma221 c
    * gammado222 c + gamma321 c * gammado322 c) * ginv22 c - (gamma121 c * (gammado123 c + gammado132 c) +
    gamma221 c * (gammado223 c + gammado232 c) + gamma321 c * (gammado323 c + gammado332 c)) * ginv23 c -
    (gamma121 c * gammado133 c + gamma221 c * gammado233 c + gamma321 c * gammado333 c) * ginv33 c

/-- Lines 2423-2437. -/
def RD13_0 (c : AdmConPt 𝔽) : 𝔽 :=
  -((gamma113 c * gammado111 c + gamma213 c * gammado211 c + gamma313 c * gammado311 c) * ginv11 c) - (gamma113 c
    * (gammado112 c + gammado121 c) + gamma213 c * (gammado212 c + gammado221 c) + gamma313 c * (gammado312 c +
    gammado321 c)) * ginv12 c - (gamma113 c * (gammado113 c + gammado131 c) + gamma213 c * (gammado213 c +
    gammado231 c) + gamma313 c * (gammado313 c + gammado331 c)) * ginv13 c - (gamma113 c * gammado122 c + gamma213 c
    * gammado222 c + gamma313 c * gammado322 c) * ginv22 c - (gamma113 c * (gammado123 c + gammado132 c) +
    gamma213 c * (gammado223 c + gammado232 c) + gamma313 c * (gammado323 c + gammado332 c)) * ginv23 c -
    (gamma113 c * gammado133 c + gamma213 c * gammado233 c + gamma313 c * gammado333 c) * ginv33 c

/-- Lines 2439-2453. -/
def RD13 (c : AdmConPt 𝔽) : 𝔽 :=
  -((gamma131 c * gammado111 c + gamma231 c * gammado211 c + gamma331 c * gammado311 c) * ginv11 c) - (gamma131 c
    * (gammado112 c + gammado121 c) + gamma231 c * (gammado212 c + gammado221 c) + gamma331 c * (gammado312 c +
    gammado321 c)) * ginv12 c - (gamma131 c * (gammado113 c + gammado131 c) + gamma231 c * (gammado213 c +
    gammado231 c) + gamma331 c * (gammado313 c + gammado331 c)) * ginv13 c - (gamma131 c * gammado122 c + gamma231 c
    * gammado222 c + gamma331 c * gammado322 c) * ginv22 c - (gamma131 c * (gammado123 c + gammado132 c) +
    gamma231 c * (gammado223 c + gammado232 c) + gamma331 c * (gammado323 c + gammado332 c)) * ginv23 c -
    (gamma131 c * gammado133 c + gamma231 c * gammado233 c + gamma331 c * gammado333 c) * ginv33 c

/-- Lines 2455-2469. -/
def RD22 (c : AdmConPt 𝔽) : 𝔽 :=
  -((gamma122 c * gammado111 c + gamma222 c * gammado211 c + gamma322 c * gammado311 c) * ginv11 c) - (gamma122 c
    * (gammado112 c + gammado121 c) + gamma222 c * (gammado212 c + gammado221 c) + gamma322 c * (gammado312 c +
    gammado321 c)) * ginv12 c - (gamma122 c * (gammado113 c + gammado131 c) + gamma222 c * (gammado213 c +
    gammado231 c) + gamma322 c * (gammado313 c + gammado331 c)) * ginv13 c - (gamma122 c * gammado122 c + gamma222 c
    * gammado222 c + gamma322 c * gammado322 c) * ginv22 c - (gamma122 c * (gammado123 c + gammado132 c) +
    gamma222 c * (gammado223 c + gammado232 c) + gamma322 c * (gammado323 c + gammado332 c)) * ginv23 c -
    (gamma122 c * gammado133 c + gamma222 c * gammado233 c + gamma322 c * gammado333 c) * ginv33 c

/-- Lines 2471-2485. -/
def RD23_0 (c : AdmConPt 𝔽) : 𝔽 :=
  -((gamma123 c * gammado111 c + gamma223 c * gammado211 c + gamma323 c * gammado311 c) * ginv11 c) - (gamma123 c
    * (gammado112 c + gammado121 c) + gamma223 c * (gammado212 c + gammado221 c) + gamma323 c * (gammado312 c +
    gammado321 c)) * ginv12 c - (gamma123 c * (gammado113 c + gammado131 c) + gamma223 c * (gammado213 c +
    gammado231 c) + gamma323 c * (gammado313 c + gammado331 c)) * ginv13 c - (gamma123 c * gammado122 c + gamma223 c
    * gammado222 c + gamma323 c * gammado322 c) * ginv22 c - (gamma123 c * (gammado123 c + gammado132 c) +
    gamma223 c * (gammado223 c + gammado232 c) + gamma323 c * (gammado323 c + gammado332 c)) * ginv23 c -
    (gamma123 c * gammado133 c + gamma223 c * gammado233 c + gamma323 c * gammado333 c) * ginv33 c

/-- Lines 2487-2501. -/
def RD23 (c : AdmConPt 𝔽) : 𝔽 :=
  -((gamma132 c * gammado111 c + gamma232 c * gammado211 c + gamma332 c * gammado311 c) * ginv11 c) - (gamma132 c
    * (gammado112 c + gammado121 c) + gamma232 c * (gammado212 c + gammado221 c) + gamma332 c * (gammado312 c +
    gammado321 c)) * ginv12 c - (gamma132 c * (gammado113 c + gammado131 c) + gamma232 c * (gammado213 c +
    gammado231 c) + gamma332 c * (gammado313 c + gammado331 c)) * ginv13 c - (gamma132 c * gammado122 c + gamma232 c
    * gammado222 c + gamma332 c * gammado322 c) * ginv22 c - (gamma132 c * (gammado123 c + gammado132 c) +
    gamma232 c * (gammado223 c + gammado232 c) + gamma332 c * (gammado323 c + gammado332 c)) * ginv23 c -
    (gamma132 c * gammado133 c + gamma232 c * gammado233 c + gamma332 c * gammado333 c) * ginv33 c

/-- Lines 2503-2517. -/
def RD33 (c : AdmConPt 𝔽) : 𝔽 :=
  -((gamma133 c * gammado111 c + gamma233 c * gammado211 c + gamma333 c * gammado311 c) * ginv11 c) - (gamma133 c
    * (gammado112 c + gammado121 c) + gamma233 c * (gammado212 c + gammado221 c) + gamma333 c * (gammado312 c +
    gammado321 c)) * ginv12 c - (gamma133 c * (gammado113 c + gammado131 c) + gamma233 c * (gammado213 c +
    gammado231 c) + gamma333 c * (gammado313 c + gammado331 c)) * ginv13 c - (gamma133 c * gammado122 c + gamma233 c
    * gammado222 c + gamma333 c * gammado322 c) * ginv22 c - (gamma133 c * (gammado123 c + gammado132 c) +
    gamma233 c * (gammado223 c + gammado232 c) + gamma333 c * (gammado323 c + gammado332 c)) * ginv23 c -
    (gamma133 c * gammado133 c + gamma233 c * gammado233 c + gamma333 c * gammado333 c) * ginv33 c

/-- Lines 2519-2523. -/
def RA (c : AdmConPt 𝔽) : 𝔽 :=
  ginv11 c * RA11 c + ginv22 c * RA22 c + 2 * (ginv12 c * RA12 c + ginv13 c * RA13 c + ginv23 c * RA23 c) +
    ginv33 c * RA33 c

/-- Lines 2525-2529. -/
def RB (c : AdmConPt 𝔽) : 𝔽 :=
  ginv11 c * RB11 c + ginv22 c * RB22 c + 2 * (ginv12 c * RB12 c + ginv13 c * RB13 c + ginv23 c * RB23 c) +
    ginv33 c * RB33 c

/-- Lines 2531-2535. -/
def RC (c : AdmConPt 𝔽) : 𝔽 :=
  ginv11 c * RC11 c + ginv22 c * RC22 c + 2 * (ginv12 c * RC12 c + ginv13 c * RC13 c + ginv23 c * RC23 c) +
    ginv33 c * RC33 c

/-- Lines 2537-2541. -/
def RD (c : AdmConPt 𝔽) : 𝔽 :=
  ginv11 c * RD11 c + ginv22 c * RD22 c + 2 * (ginv12 c * RD12 c + ginv13 c * RD13 c + ginv23 c * RD23 c) +
    ginv33 c * RD33 c

/-- Lines 2543-2547. -/
def denomHT [LinearOrder 𝔽] (c : AdmConPt 𝔽) : 𝔽 :=
  abs (hamrhs c) + abs (KudKud c) + abs (RA c) + abs (RB c) + abs (RC c) + abs (RD c) + K c ^ 2

/-- Lines 2552-2555. -/
def denomHF [LinearOrder 𝔽] (c : AdmConPt 𝔽) : 𝔽 := abs (hamrhs c) + abs (KudKud c) + abs (R c) + K c ^ 2

/-- Lines 2151-2557. -/
def denomH [LinearOrder 𝔽] (c : AdmConPt 𝔽) : 𝔽 := if c.termByTerm then denomHT c else denomHF c

/-- Lines 2561-2564. -/
def normham [LinearOrder 𝔽] (c : AdmConPt 𝔽) : 𝔽 := if denomH c ≤ 0 then 0 else ham c / denomH c

/-- Lines 2571-2574. -/
def codelKA111 (c : AdmConPt 𝔽) : 𝔽 := delK111 c

/-- Lines 2576-2579. -/
def codelKA112 (c : AdmConPt 𝔽) : 𝔽 := delK112 c

/-- Lines 2581-2584. -/
def codelKA113 (c : AdmConPt 𝔽) : 𝔽 := delK113 c

/-- Lines 2586-2589. -/
def codelKA122 (c : AdmConPt 𝔽) : 𝔽 := delK122 c

/-- Lines 2591-2594. -/
def codelKA123 (c : AdmConPt 𝔽) : 𝔽 := delK123 c

/-- Lines 2596-2599. -/
def codelKA133 (c : AdmConPt 𝔽) : 𝔽 := delK133 c

/-- Lines 2601-2604. -/
def codelKA211 (c : AdmConPt 𝔽) : 𝔽 := delK211 c

/-- Lines 2606-2609. -/
def codelKA212 (c : AdmConPt 𝔽) : 𝔽 := delK212 c

/-- Lines 2611-2614. -/
def codelKA213 (c : AdmConPt 𝔽) : 𝔽 := delK213 c

/-- Lines 2616-2619. -/
def codelKA222 (c : AdmConPt 𝔽) : 𝔽 := delK222 c

/-- Lines 2621-2624. -/
def codelKA223 (c : AdmConPt 𝔽) : 𝔽 := delK223 c

/-- Lines 2626-2629. -/
def codelKA233 (c : AdmConPt 𝔽) : 𝔽 := delK233 c

/-- Lines 2631-2634. -/
def codelKA311 (c : AdmConPt 𝔽) : 𝔽 := delK311 c

/-- Lines 2636-2639. -/
def codelKA312 (c : AdmConPt 𝔽) : 𝔽 := delK312 c

/-- Lines 2641-2644. -/
def codelKA313 (c : AdmConPt 𝔽) : 𝔽 := delK313 c

/-- Lines 2646-2649. -/
def codelKA322 (c : AdmConPt 𝔽) : 𝔽 := delK322 c

/-- Lines 2651-2654. -/
def codelKA323 (c : AdmConPt 𝔽) : 𝔽 := delK323 c

/-- Lines 2656-2659. -/
def codelKA333 (c : AdmConPt 𝔽) : 𝔽 := delK333 c

/-- Lines 2661-2664. -/
def codelKB111 (c : AdmConPt 𝔽) : 𝔽 := -(gamma111 c * K11 c) - gamma211 c * K12 c - gamma311 c * K13 c

/-- Lines 2666-2669. -/
def codelKB112_0 (c : AdmConPt 𝔽) : 𝔽 := -(gamma112 c * K11 c) - gamma212 c * K12 c - gamma312 c * K13 c

/-- Lines 2671-2674. -/
def codelKB112 (c : AdmConPt 𝔽) : 𝔽 := -(gamma111 c * K12 c) - gamma211 c * K22 c - gamma311 c * K23 c

/-- Lines 2676-2679. -/
def codelKB113_0 (c : AdmConPt 𝔽) : 𝔽 := -(gamma113 c * K11 c) - gamma213 c * K12 c - gamma313 c * K13 c

/-- Lines 2681-2684. -/
def codelKB113 (c : AdmConPt 𝔽) : 𝔽 := -(gamma111 c * K13 c) - gamma211 c * K23 c - gamma311 c * K33 c

/-- Lines 2686-2689. -/
def codelKB122 (c : AdmConPt 𝔽) : 𝔽 := -(gamma112 c * K12 c) - gamma212 c * K22 c - gamma312 c * K23 c

/-- Lines 2691-2694. -/
def codelKB123_0 (c : AdmConPt 𝔽) : 𝔽 := -(gamma113 c * K12 c) - gamma213 c * K22 c - gamma313 c * K23 c

/-- Lines 2696-2699. -/
def codelKB123 (c : AdmConPt 𝔽) : 𝔽 := -(gamma112 c * K13 c) - gamma212 c * K23 c - gamma312 c * K33 c

/-- Lines 2701-2704. -/
def codelKB133 (c : AdmConPt 𝔽) : 𝔽 := -(gamma113 c * K13 c) - gamma213 c * K23 c - gamma313 c * K33 c

/-- Lines 2706-2709. -/
def codelKB211 (c : AdmConPt 𝔽) : 𝔽 := -(gamma121 c * K11 c) - gamma221 c * K12 c - gamma321 c * K13 c

/-- Lines 2711-2714. -/
def codelKB212_0 (c : AdmConPt 𝔽) : 𝔽 := -(gamma122 c * K11 c) - gamma222 c * K12 c - gamma322 c * K13 c

/-- Lines 2716-2719. -/
def codelKB212 (c : AdmConPt 𝔽) : 𝔽 := -(gamma121 c * K12 c) - gamma221 c * K22 c - gamma321 c * K23 c

/-- Lines 2721-2724. -/
def codelKB213_0 (c : AdmConPt 𝔽) : 𝔽 := -(gamma123 c * K11 c) - gamma223 c * K12 c - gamma323 c * K13 c

/-- Lines 2726-2729. -/
def codelKB213 (c : AdmConPt 𝔽) : 𝔽 := -(gamma121 c * K13 c) - gamma221 c * K23 c - gamma321 c * K33 c

/-- Lines 2731-2734. -/
def codelKB222 (c : AdmConPt 𝔽) : 𝔽 := -(gamma122 c * K12 c) - gamma222 c * K22 c - gamma322 c * K23 c

/-- Lines 2736-2739. -/
def codelKB223_0 (c : AdmConPt 𝔽) : 𝔽 := -(gamma123 c * K12 c) - gamma223 c * K22 c - gamma323 c * K23 c

/-- Lines 2741-2744. -/
def codelKB223 (c : AdmConPt 𝔽) : 𝔽 := -(gamma122 c * K13 c) - gamma222 c * K23 c - gamma322 c * K33 c

/-- Lines 2746-2749. -/
def codelKB233 (c : AdmConPt 𝔽) : 𝔽 := -(gamma123 c * K13 c) - gamma223 c * K23 c - gamma323 c * K33 c

/-- Lines 2751-2754. -/
def codelKB311 (c : AdmConPt 𝔽) : 𝔽 := -(gamma131 c * K11 c) - gamma231 c * K12 c - gamma331 c * K13 c

/-- Lines 2756-2759. -/
def codelKB312_0 (c : AdmConPt 𝔽) : 𝔽 := -(gamma132 c * K11 c) - gamma232 c * K12 c - gamma332 c * K13 c

/-- Lines 2761-2764. -/
def codelKB312 (c : AdmConPt 𝔽) : 𝔽 := -(gamma131 c * K12 c) - gamma231 c * K22 c - gamma331 c * K23 c

/-- Lines 2766-2769. -/
def codelKB313_0 (c : AdmConPt 𝔽) : 𝔽 := -(gamma133 c * K11 c) - gamma233 c * K12 c - gamma333 c * K13 c

/-- Lines 2771-2774. -/
def codelKB313 (c : AdmConPt 𝔽) : 𝔽 := -(gamma131 c * K13 c) - gamma231 c * K23 c - gamma331 c * K33 c

/-- Lines 2776-2779. -/
def codelKB322 (c : AdmConPt 𝔽) : 𝔽 := -(gamma132 c * K12 c) - gamma232 c * K22 c - gamma332 c * K23 c

/-- Lines 2781-2784. -/
def codelKB323_0 (c : AdmConPt 𝔽) : 𝔽 := -(gamma133 c * K12 c) - gamma233 c * K22 c - gamma333 c * K23 c

/-- Lines 2786-2789. -/
def codelKB323 (c : AdmConPt 𝔽) : 𝔽 := -(gamma132 c * K13 c) - gamma232 c * K23 c - gamma332 c * K33 c

/-- Lines 2791-2794. -/
def codelKB333 (c : AdmConPt 𝔽) : 𝔽 := -(gamma133 c * K13 c) - gamma233 c * K23 c - gamma333 c * K33 c

/-- Lines 2796-2799. -/
def codelKC111 (c : AdmConPt 𝔽) : 𝔽 := -(gamma111 c * K11 c) - gamma211 c * K12 c - gamma311 c * K13 c

/-- Lines 2801-2804. -/
def codelKC112_0 (c : AdmConPt 𝔽) : 𝔽 := -(gamma112 c * K11 c) - gamma212 c * K12 c - gamma312 c * K13 c

/-- Lines 2806-2809. -/
def codelKC112 (c : AdmConPt 𝔽) : 𝔽 := -(gamma111 c * K12 c) - gamma211 c * K22 c - gamma311 c * K23 c

/-- Lines 2811-2814. -/
def codelKC113_0 (c : AdmConPt 𝔽) : 𝔽 := -(gamma113 c * K11 c) - gamma213 c * K12 c - gamma313 c * K13 c

/-- Lines 2816-2819. -/
def codelKC113 (c : AdmConPt 𝔽) : 𝔽 := -(gamma111 c * K13 c) - gamma211 c * K23 c - gamma311 c * K33 c

/-- Lines 2821-2824. -/
def codelKC122 (c : AdmConPt 𝔽) : 𝔽 := -(gamma112 c * K12 c) - gamma212 c * K22 c - gamma312 c * K23 c

/-- Lines 2826-2829. -/
def codelKC123_0 (c : AdmConPt 𝔽) : 𝔽 := -(gamma113 c * K12 c) - gamma213 c * K22 c - gamma313 c * K23 c

/-- Lines 2831-2834. -/
def codelKC123 (c : AdmConPt 𝔽) : 𝔽 := -(gamma112 c * K13 c) - gamma212 c * K23 c - gamma312 c * K33 c

/-- Lines 2836-2839. -/
def codelKC133 (c : AdmConPt 𝔽) : 𝔽 := -(gamma113 c * K13 c) - gamma213 c * K23 c - gamma313 c * K33 c

/-- Lines 2841-2844. -/
def codelKC211 (c : AdmConPt 𝔽) : 𝔽 := -(gamma121 c * K11 c) - gamma221 c * K12 c - gamma321 c * K13 c

/-- Lines 2846-2849. -/
def codelKC212_0 (c : AdmConPt 𝔽) : 𝔽 := -(gamma122 c * K11 c) - gamma222 c * K12 c - gamma322 c * K13 c

/-- Lines 2851-2854. -/
def codelKC212 (c : AdmConPt 𝔽) : 𝔽 := -(gamma121 c * K12 c) - gamma221 c * K22 c - gamma321 c * K23 c

/-- Lines 2856-2859. -/
def codelKC213_0 (c : AdmConPt 𝔽) : 𝔽 := -(gamma123 c * K11 c) - gamma223 c * K12 c - gamma323 c * K13 c

/-- Lines 2861-2864. -/
def codelKC213 (c : AdmConPt 𝔽) : 𝔽 := -(gamma121 c * K13 c) - gamma221 c * K23 c - gamma321 c * K33 c

/-- Lines 2866-2869. -/
def codelKC222 (c : AdmConPt 𝔽) : 𝔽 := -(gamma122 c * K12 c) - gamma222 c * K22 c - gamma322 c * K23 c

/-- Lines 2871-2874. -/
def codelKC223_0 (c : AdmConPt 𝔽) : 𝔽 := -(gamma123 c * K12 c) - gamma223 c * K22 c - gamma323 c * K23 c

/-- Lines 2876-2879. -/
def codelKC223 (c : AdmConPt 𝔽) : 𝔽 := -(gamma122 c * K13 c) - gamma222 c * K23 c - gamma322 c * K33 c

/-- Lines 2881-2884. -/
def codelKC233 (c : AdmConPt 𝔽) : 𝔽 := -(gamma123 c * K13 c) - gamma223 c * K23 c - gamma323 c * K33 c

/-- Lines 2886-2889. -/
def codelKC311 (c : AdmConPt 𝔽) : 𝔽 := -(gamma131 c * K11 c) - gamma231 c * K12 c - gamma331 c * K13 c

/-- Lines 2891-2894. -/
def codelKC312_0 (c : AdmConPt 𝔽) : 𝔽 := -(gamma132 c * K11 c) - gamma232 c * K12 c - gamma332 c * K13 c

/-- Lines 2896-2899. -/
def codelKC312 (c : AdmConPt 𝔽) : 𝔽 := -(gamma131 c * K12 c) - gamma231 c * K22 c - gamma331 c * K23 c

/-- Lines 2901-2904. -/
def codelKC313_0 (c : AdmConPt 𝔽) : 𝔽 := -(gamma133 c * K11 c) - gamma233 c * K12 c - gamma333 c * K13 c

/-- Lines 2906-2909. -/
def codelKC313 (c : AdmConPt 𝔽) : 𝔽 := -(gamma131 c * K13 c) - gamma231 c * K23 c - gamma331 c * K33 c

/-- Lines 2911-2914. -/
def codelKC322 (c : AdmConPt 𝔽) : 𝔽 := -(gamma132 c * K12 c) - gamma232 c * K22 c - gamma332 c * K23 c

/-- Lines 2916-2919. -/
def codelKC323_0 (c : AdmConPt 𝔽) : 𝔽 := -(gamma133 c * K12 c) - gamma233 c * K22 c - gamma333 c * K23 c

/-- Lines 2921-2924. -/
def codelKC323 (c : AdmConPt 𝔽) : 𝔽 := -(gamma132 c * K13 c) - gamma232 c * K23 c - gamma332 c * K33 c

/-- Lines 2926-2929. -/
def codelKC333 (c : AdmConPt 𝔽) : 𝔽 := -(gamma133 c * K13 c) - gamma233 c * K23 c - gamma333 c * K33 c

/-- Lines 2931-2936. -/
def cdKdA1 (c : AdmConPt 𝔽) : 𝔽 :=
  codelKA111 c * ginv11 c + (codelKA112 c + codelKA211 c) * ginv12 c + (codelKA113 c + codelKA311 c) * ginv13 c +
    codelKA212 c * ginv22 c + (codelKA213 c + codelKA312 c) * ginv23 c + codelKA313 c * ginv33 c

/-- Lines 2938-2943. -/
def cdKdA2 (c : AdmConPt 𝔽) : 𝔽 :=
  codelKA112 c * ginv11 c + (codelKA122 c + codelKA212 c) * ginv12 c + (codelKA123 c + codelKA312 c) * ginv13 c +
    codelKA222 c * ginv22 c + (codelKA223 c + codelKA322 c) * ginv23 c + codelKA323 c * ginv33 c

/-- Lines 2945-2950. -/
def cdKdA3 (c : AdmConPt 𝔽) : 𝔽 :=
  codelKA113 c * ginv11 c + (codelKA123 c + codelKA213 c) * ginv12 c + (codelKA133 c + codelKA313 c) * ginv13 c +
    codelKA223 c * ginv22 c + (codelKA233 c + codelKA323 c) * ginv23 c + codelKA333 c * ginv33 c

/-- Lines 2952-2957. -/
def cdKdB1 (c : AdmConPt 𝔽) : 𝔽 :=
  codelKB111 c * ginv11 c + (codelKB112 c + codelKB211 c) * ginv12 c + (codelKB113 c + codelKB311 c) * ginv13 c +
    codelKB212 c * ginv22 c + (codelKB213 c + codelKB312 c) * ginv23 c + codelKB313 c * ginv33 c

/-- Lines 2959-2964. -/
def cdKdB2 (c : AdmConPt 𝔽) : 𝔽 :=
  codelKB112 c * ginv11 c + (codelKB122 c + codelKB212 c) * ginv12 c + (codelKB123 c + codelKB312 c) * ginv13 c +
    codelKB222 c * ginv22 c + (codelKB223 c + codelKB322 c) * ginv23 c + codelKB323 c * ginv33 c

/-- Lines 2966-2971. -/
def cdKdB3 (c : AdmConPt 𝔽) : 𝔽 :=
  codelKB113 c * ginv11 c + (codelKB123 c + codelKB213 c) * ginv12 c + (codelKB133 c + codelKB313 c) * ginv13 c +
    codelKB223 c * ginv22 c + (codelKB233 c + codelKB323 c) * ginv23 c + codelKB333 c * ginv33 c

/-- Lines 2973-2978. -/
def cdKdC1 (c : AdmConPt 𝔽) : 𝔽 :=
  codelKC111 c * ginv11 c + (codelKC112 c + codelKC211 c) * ginv12 c + (codelKC113 c + codelKC311 c) * ginv13 c +
    codelKC212 c * ginv22 c + (codelKC213 c + codelKC312 c) * ginv23 c + codelKC313 c * ginv33 c

/-- Lines 2980-2985. -/
def cdKdC2 (c : AdmConPt 𝔽) : 𝔽 :=
  codelKC112 c * ginv11 c + (codelKC122 c + codelKC212 c) * ginv12 c + (codelKC123 c + codelKC312 c) * ginv13 c +
    codelKC222 c * ginv22 c + (codelKC223 c + codelKC322 c) * ginv23 c + codelKC323 c * ginv33 c

/-- Lines 2987-2992. -/
def cdKdC3 (c : AdmConPt 𝔽) : 𝔽 :=
  codelKC113 c * ginv11 c + (codelKC123 c + codelKC213 c) * ginv12 c + (codelKC133 c + codelKC313 c) * ginv13 c +
    codelKC223 c * ginv22 c + (codelKC233 c + codelKC323 c) * ginv23 c + codelKC333 c * ginv33 c

/-- Lines 2994-2999. -/
def codelTrKA1 (c : AdmConPt 𝔽) : 𝔽 :=
  codelKA111 c * ginv11 c + codelKA122 c * ginv22 c + 2 * (codelKA112 c * ginv12 c + codelKA113 c * ginv13 c +
    codelKA123 c * ginv23 c) + codelKA133 c * ginv33 c

/-- Lines 3001-3006. -/
def codelTrKA2 (c : AdmConPt 𝔽) : 𝔽 :=
  codelKA211 c * ginv11 c + codelKA222 c * ginv22 c + 2 * (codelKA212 c * ginv12 c + codelKA213 c * ginv13 c +
    codelKA223 c * ginv23 c) + codelKA233 c * ginv33 c

/-- Lines 3008-3013. -/
def codelTrKA3 (c : AdmConPt 𝔽) : 𝔽 :=
  codelKA311 c * ginv11 c + codelKA322 c * ginv22 c + 2 * (codelKA312 c * ginv12 c + codelKA313 c * ginv13 c +
    codelKA323 c * ginv23 c) + codelKA333 c * ginv33 c

/-- Lines 3015-3020. -/
def codelTrKB1 (c : AdmConPt 𝔽) : 𝔽 :=
  codelKB111 c * ginv11 c + codelKB122 c * ginv22 c + 2 * (codelKB112 c * ginv12 c + codelKB113 c * ginv13 c +
    codelKB123 c * ginv23 c) + codelKB133 c * ginv33 c

/-- Lines 3022-3027. -/
def codelTrKB2 (c : AdmConPt 𝔽) : 𝔽 :=
  codelKB211 c * ginv11 c + codelKB222 c * ginv22 c + 2 * (codelKB212 c * ginv12 c + codelKB213 c * ginv13 c +
    codelKB223 c * ginv23 c) + codelKB233 c * ginv33 c

/-- Lines 3029-3034. -/
def codelTrKB3 (c : AdmConPt 𝔽) : 𝔽 :=
  codelKB311 c * ginv11 c + codelKB322 c * ginv22 c + 2 * (codelKB312 c * ginv12 c + codelKB313 c * ginv13 c +
    codelKB323 c * ginv23 c) + codelKB333 c * ginv33 c

/-- Lines 3036-3041. -/
def codelTrKC1 (c : AdmConPt 𝔽) : 𝔽 :=
  codelKC111 c * ginv11 c + codelKC122 c * ginv22 c + 2 * (codelKC112 c * ginv12 c + codelKC113 c * ginv13 c +
    codelKC123 c * ginv23 c) + codelKC133 c * ginv33 c

/-- Lines 3043-3048. -/
def codelTrKC2 (c : AdmConPt 𝔽) : 𝔽 :=
  codelKC211 c * ginv11 c + codelKC222 c * ginv22 c + 2 * (codelKC212 c * ginv12 c + codelKC213 c * ginv13 c +
    codelKC223 c * ginv23 c) + codelKC233 c * ginv33 c

/-- Lines 3050-3055. -/
def codelTrKC3 (c : AdmConPt 𝔽) : 𝔽 :=
  codelKC311 c * ginv11 c + codelKC322 c * ginv22 c + 2 * (codelKC312 c * ginv12 c + codelKC313 c * ginv13 c +
    codelKC323 c * ginv23 c) + codelKC333 c * ginv33 c

/-- Lines 3057-3061. -/
def denom1T [LinearOrder 𝔽] (c : AdmConPt 𝔽) : 𝔽 :=
  abs (cdKdA1 c) + abs (cdKdB1 c) + abs (cdKdC1 c) + abs (codelTrKA1 c) + abs (codelTrKB1 c) + abs (codelTrKC1 c)
    + abs (momrhs1 c)

/-- Lines 3063-3067. -/
def denom2T [LinearOrder 𝔽] (c : AdmConPt 𝔽) : 𝔽 :=
  abs (cdKdA2 c) + abs (cdKdB2 c) + abs (cdKdC2 c) + abs (codelTrKA2 c) + abs (codelTrKB2 c) + abs (codelTrKC2 c)
    + abs (momrhs2 c)

/-- Lines 3069-3073. -/
def denom3T [LinearOrder 𝔽] (c : AdmConPt 𝔽) : 𝔽 :=
  abs (cdKdA3 c) + abs (cdKdB3 c) + abs (cdKdC3 c) + abs (codelTrKA3 c) + abs (codelTrKB3 c) + abs (codelTrKC3 c)
    + abs (momrhs3 c)

/-- Lines 3078-3084. -/
def denom1F [LinearOrder 𝔽] (c : AdmConPt 𝔽) : 𝔽 :=
  abs (cdKudd111 c + cdKudd212 c + cdKudd313 c) + abs (codelK111 c * ginv11 c + codelK122 c * ginv22 c + 2 *
    (codelK112 c * ginv12 c + codelK113 c * ginv13 c + codelK123 c * ginv23 c) + codelK133 c * ginv33 c) + abs
    (momrhs1 c)

/-- Lines 2569-3100. -/
def denom1 [LinearOrder 𝔽] (c : AdmConPt 𝔽) : 𝔽 := if c.termByTerm then denom1T c else denom1F c

/-- Lines 3086-3092. -/
def denom2F [LinearOrder 𝔽] (c : AdmConPt 𝔽) : 𝔽 :=
  abs (cdKudd112 c + cdKudd222 c + cdKudd323 c) + abs (codelK211 c * ginv11 c + codelK222 c * ginv22 c + 2 *
    (codelK212 c * ginv12 c + codelK213 c * ginv13 c + codelK223 c * ginv23 c) + codelK233 c * ginv33 c) + abs
    (momrhs2 c)

/-- Lines 2569-3100. -/
def denom2 [LinearOrder 𝔽] (c : AdmConPt 𝔽) : 𝔽 := if c.termByTerm then denom2T c else denom2F c

/-- Lines 3094-3100. -/
def denom3F [LinearOrder 𝔽] (c : AdmConPt 𝔽) : 𝔽 :=
  abs (cdKudd113 c + cdKudd223 c + cdKudd333 c) + abs (codelK311 c * ginv11 c + codelK322 c * ginv22 c + 2 *
    (codelK312 c * ginv12 c + codelK313 c * ginv13 c + codelK323 c * ginv23 c) + codelK333 c * ginv33 c) + abs
    (momrhs3 c)

/-- Lines 2569-3100. -/
def denom3 [LinearOrder 𝔽] (c : AdmConPt 𝔽) : 𝔽 := if c.termByTerm then denom3T c else denom3F c

/-- Lines 3106-3109. -/
def denomM [LinearOrder 𝔽] (c : AdmConPt 𝔽) : 𝔽 := denom1 c + denom2 c + denom3 c

/-- Lines 3111-3114. -/
def normmom1 [LinearOrder 𝔽] (c : AdmConPt 𝔽) : 𝔽 := if denomM c ≤ 0 then 0 else mom1 c / denomM c

/-- Lines 3116-3119. -/
def normmom2 [LinearOrder 𝔽] (c : AdmConPt 𝔽) : 𝔽 := if denomM c ≤ 0 then 0 else mom2 c / denomM c

/-- Lines 3121-3124. -/
def normmom3 [LinearOrder 𝔽] (c : AdmConPt 𝔽) : 𝔽 := if denomM c ≤ 0 then 0 else mom3 c / denomM c

end Adm

/-- The values that are set at the point. -/
structure AdmOut (K : Type) where
  ham : K
  mom : Nat → K
  trK : K
  dtrKdt : K
  norm : Option (K × (Nat → K))

/-- The loop body (lines 40-3127). The pointer `rho` is used in line 2131 if `S11` is not NULL. -/
def admPoint {𝔽 : Type} [Field 𝔽] [LinearOrder 𝔽] (c : AdmConPt 𝔽) : Res (AdmOut 𝔽) :=
  if !c.sNull && c.rhoNull then .ub
  else .ok ⟨Adm.ham c, fun a => [Adm.mom1 c, Adm.mom2 c, Adm.mom3 c].getD a 0, Adm.trK c, Adm.dtrKdt c,
    if c.normConstr then some (Adm.normham c, fun a => [Adm.normmom1 c, Adm.normmom2 c, Adm.normmom3 c].getD a 0) else none⟩

end Sgrid
