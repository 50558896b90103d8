import Verif.Lemmas.JTree
import Verif.Gen.Jacobian13

/-!
# Generated by tools/gen_jacobian.py
-/

namespace BP.EL

def jac369 : JTree := .node (.node (.node (.node (.node (.node .nil (.node .nil (.node (.node (.node (.leaf (.trans [(15187537, .ofNat 1)] 0)) .nil) .nil) .nil))) (.node (.node .nil (.node (.node (.node (.leaf (.mult 45751 4784 (.ofNat 1) 0)) .nil) .nil) .nil)) (.node (.node (.node (.node (.leaf (.trans [(20880427, .ofNat 1)] 0)) .nil) .nil) .nil) (.node (.node (.node (.leaf (.mult 45949 4817 (.ofNat 1) 0)) .nil) .nil) .nil)))) (.node (.node (.node .nil (.node (.node (.node (.leaf (.mult 3581 4736 (.ofNat 1) 0)) .nil) .nil) .nil)) (.node (.node (.node (.node (.leaf (.mult 28031 4653 (.ofNat 1) 0)) .nil) .nil) .nil) (.node (.node (.node (.leaf (.trans [(5435341, .ofNat 1)] 0)) .nil) .nil) .nil))) .nil)) (.node (.node (.node .nil (.node (.node (.node (.node (.leaf (.mult 6659 693 (.ofNat 1) 0)) .nil) .nil) .nil) .nil)) (.node .nil (.node .nil (.node (.node (.node (.leaf (.mult 34501 4712 (.ofNat 1) 0)) .nil) .nil) .nil)))) (.node (.node (.node .nil (.node (.node (.node (.leaf (.mult 45589 4744 (.ofNat 1) 0)) .nil) .nil) .nil)) .nil) (.node .nil (.node .nil (.node (.node (.node .nil (.leaf (.trans [(409, .ofNat 1)] 0))) .nil) .nil)))))) (.node (.node (.node (.node .nil (.node (.node (.node (.node (.leaf (.mult 9461 4609 (.ofNat 1) 0)) .nil) .nil) .nil) .nil)) (.node (.node .nil (.node (.node (.node (.leaf (.mult 34757 4800 (.ofNat 1) 0)) .nil) .nil) .nil)) (.node .nil (.node (.node (.node (.leaf (.mult 28183 4714 (.ofNat 1) 0)) .nil) .nil) .nil)))) (.node (.node (.node .nil (.node (.node (.node (.leaf (.mult 28307 4748 (.ofNat 1) 0)) .nil) .nil) .nil)) (.node (.node (.node (.node (.leaf (.mult 45329 4666 (.negSucc 0) 0)) .nil) .nil) .nil) (.node (.node (.node (.leaf (.trans [(10282253, .ofNat 1)] 0)) .nil) .nil) .nil))) .nil)) (.node (.node (.node (.node .nil (.node (.node (.node (.leaf (.trans [(11430791, .negSucc 0)] 0)) .nil) .nil) .nil)) (.node (.node (.node (.node (.leaf (.mult 9901 4634 (.ofNat 1) 0)) .nil) .nil) .nil) (.node (.node (.node (.leaf (.trans [(7017371, .ofNat 1)] 0)) .nil) .nil) .nil))) .nil) (.node (.node .nil (.node (.node (.node (.node (.leaf (.mult 4583 4701 (.ofNat 1) 0)) .nil) .nil) .nil) .nil)) (.node (.node .nil (.node (.node (.node (.leaf (.mult 34429 4610 (.ofNat 1) 0)) .nil) .nil) .nil)) .nil))))) (.node (.node (.node (.node (.node .nil (.node (.node (.node (.node (.leaf (.trans [(29116301, .negSucc 0)] 0)) .nil) .nil) .nil) (.node (.node (.node (.leaf (.trans [(12578519, .ofNat 1)] 0)) .nil) .nil) .nil))) (.node (.node .nil (.node (.node (.node (.leaf (.mult 34703 4792 (.ofNat 1) 0)) .nil) .nil) .nil)) (.node (.node (.node (.node (.leaf (.trans [(13272131, .ofNat 1)] 0)) .nil) .nil) .nil) .nil))) (.node (.node (.node .nil (.node (.node (.node (.leaf (.mult 28351 4756 (.ofNat 1) 0)) .nil) .nil) .nil)) (.node (.node (.node (.node (.leaf (.mult 21977 4663 (.ofNat 1) 0)) .nil) .nil) .nil) .nil)) .nil)) (.node (.node (.node (.node .nil (.node (.node (.node (.leaf (.trans [(33365681, .ofNat 1)] 0)) .nil) .nil) .nil)) (.node (.node (.node (.node (.leaf (.mult 10399 4624 (.ofNat 1) 0)) .nil) .nil) .nil) .nil)) .nil) (.node (.node (.node .nil (.node (.node (.node (.leaf (.mult 45841 4804 (.ofNat 1) 0)) .nil) .nil) .nil)) (.node (.node (.node (.node (.leaf (.trans [(12989953, .ofNat 1)] 0)) .nil) .nil) .nil) (.node (.node (.node (.leaf (.mult 22003 4677 (.ofNat 1) 0)) .nil) .nil) .nil))) (.node .nil (.node .nil (.node (.node (.node .nil (.leaf (.trans [(46861, .ofNat 1)] 0))) .nil) .nil)))))) (.node (.node (.node (.node .nil (.node (.node (.node (.node (.leaf (.mult 27983 4615 (.negSucc 0) 0)) .nil) .nil) .nil) (.node (.node (.node (.leaf (.mult 28001 4621 (.ofNat 1) 0)) .nil) .nil) .nil))) (.node (.node .nil (.node (.node (.node (.leaf (.mult 28429 4813 (.ofNat 1) 0)) .nil) .nil) .nil)) (.node .nil (.node (.node (.node (.leaf (.mult 28163 4711 (.ofNat 1) 0)) .nil) .nil) .nil)))) (.node (.node (.node .nil (.node (.node (.node (.leaf (.trans [(1337592173, .negSucc 0)] 0)) .nil) .nil) .nil)) (.node (.node (.node (.node (.leaf (.trans [(8495719, .ofNat 2)] 0)) .nil) .nil) .nil) .nil)) (.node .nil (.node .nil (.node (.node (.node .nil (.leaf (.trans [(1249, .negSucc 0)] 0))) .nil) .nil))))) (.node (.node (.node (.node .nil (.node (.node (.node (.leaf (.mult 45557 4728 (.ofNat 1) 0)) .nil) .nil) .nil)) (.node (.node (.node (.node (.leaf (.mult 21871 4638 (.ofNat 1) 0)) .nil) .nil) .nil) (.node (.node (.node (.leaf (.mult 21893 4642 (.ofNat 1) 0)) .nil) .nil) .nil))) .nil) (.node (.node (.node .nil (.node (.node (.node (.leaf (.mult 45697 4777 (.ofNat 1) 0)) .nil) .nil) .nil)) (.node (.node (.node (.node (.leaf (.mult 45439 4702 (.ofNat 1) 0)) .nil) .nil) .nil) .nil)) (.node (.node .nil (.node (.node (.node (.leaf (.trans [(15797839, .ofNat 1)] 0)) .nil) .nil) .nil)) .nil)))))

def jac370 : JTree := .node (.node (.node (.node (.node .nil (.node (.node .nil (.node (.node (.node (.leaf (.mult 34673 4781 (.ofNat 1) 0)) .nil) .nil) .nil)) (.node (.node (.node (.node (.leaf (.mult 45389 4687 (.ofNat 1) 0)) .nil) .nil) .nil) .nil))) (.node (.node (.node .nil (.node (.node (.node (.leaf (.mult 7457 4735 (.ofNat 1) 0)) .nil) .nil) .nil)) (.node (.node (.node (.node (.leaf (.mult 21911 4648 (.ofNat 1) 0)) .nil) .nil) .nil) .nil)) .nil)) (.node (.node (.node .nil (.node (.node (.node (.node (.leaf (.mult 27997 4620 (.ofNat 1) 0)) .nil) .nil) .nil) .nil)) .nil) (.node (.node (.node .nil (.node (.node (.node (.leaf (.mult 28279 4741 (.ofNat 1) 0)) .nil) .nil) .nil)) (.node (.node (.node (.node (.leaf (.trans [(4151171, .negSucc 0)] 0)) .nil) .nil) .nil) .nil)) .nil))) (.node (.node (.node (.node .nil (.node (.node (.node (.node (.leaf (.mult 16691 4608 (.negSucc 1) 0)) .nil) .nil) .nil) (.node (.node (.node (.leaf (.trans [(16125719, .ofNat 1)] 0)) .nil) .nil) .nil))) (.node (.node .nil (.node (.node (.node (.leaf (.mult 34747 4798 (.ofNat 1) 0)) .nil) .nil) .nil)) .nil)) (.node (.node (.node .nil (.node (.node (.node (.leaf (.mult 34583 4750 (.ofNat 1) 0)) .nil) .nil) .nil)) (.node .nil (.node (.node (.node (.leaf (.mult 34487 4676 (.ofNat 1) 0)) .nil) .nil) .nil))) .nil)) (.node (.node (.node (.node .nil (.node (.node (.node (.leaf (.trans [(11433803, .ofNat 1)] 0)) .nil) .nil) .nil)) (.node (.node (.node (.node (.leaf (.mult 21859 4632 (.ofNat 1) 0)) .nil) .nil) .nil) .nil)) .nil) (.node (.node (.node .nil (.node (.node (.node (.leaf (.mult 45893 4809 (.ofNat 1) 0)) .nil) .nil) .nil)) (.node (.node (.node (.node (.leaf (.trans [(4840237, .ofNat 1)] 0)) .nil) .nil) .nil) .nil)) .nil)))) (.node (.node (.node (.node (.node .nil (.node (.node (.node (.node (.leaf (.trans [(217799, .negSucc 0), (36238627, .ofNat 1), (39837827, .negSucc 0)] 0)) .nil) .nil) .nil) (.node (.node (.node (.leaf (.mult 21817 4613 (.ofNat 1) 0)) .nil) .nil) .nil))) (.node (.node .nil (.node (.node (.node (.leaf (.mult 45767 4790 (.ofNat 1) 0)) .nil) .nil) .nil)) (.node (.node (.node (.node (.leaf (.mult 45427 4692 (.ofNat 1) 0)) .nil) .nil) .nil) .nil))) (.node (.node (.node .nil (.node (.node (.node (.leaf (.mult 34591 4758 (.ofNat 1) 0)) .nil) .nil) .nil)) (.node (.node (.node (.node (.leaf (.mult 28087 4661 (.ofNat 1) 0)) .nil) .nil) .nil) .nil)) .nil)) (.node (.node (.node (.node .nil (.node (.node (.node (.leaf (.trans [(35276077, .negSucc 0)] 0)) .nil) .nil) .nil)) (.node (.node (.node (.node (.leaf (.mult 21851 4627 (.ofNat 1) 0)) .nil) .nil) .nil) .nil)) .nil) (.node (.node (.node .nil (.node (.node (.node (.leaf (.mult 45667 4766 (.ofNat 1) 0)) .nil) .nil) .nil)) (.node (.node (.node (.node (.leaf (.mult 28111 4683 (.ofNat 1) 0)) .nil) .nil) .nil) .nil)) (.node .nil (.node .nil (.node (.node (.node .nil (.leaf (.trans [(45989, .ofNat 1)] 0))) .nil) .nil)))))) (.node (.node (.node (.node .nil (.node (.node (.node (.node (.leaf (.mult 17027 685 (.ofNat 1) 0)) .nil) .nil) .nil) .nil)) (.node (.node .nil (.node (.node (.node (.leaf (.mult 22051 4812 (.ofNat 1) 0)) .nil) .nil) .nil)) .nil)) (.node (.node (.node .nil (.node (.node (.node (.leaf (.trans [(95028287, .ofNat 1)] 0)) .nil) .nil) .nil)) (.node (.node (.node (.node (.leaf (.mult 14633 4675 (.ofNat 1) 0)) .nil) .nil) .nil) .nil)) (.node .nil (.node .nil (.node (.node (.node (.leaf (.trans [(22079, .ofNat 1)] 0)) .nil) .nil) .nil))))) (.node (.node (.node (.node .nil (.node (.node (.node (.leaf (.mult 28211 4726 (.ofNat 1) 0)) .nil) .nil) .nil)) (.node (.node (.node (.node (.leaf (.trans [(1825471, .ofNat 1)] 0)) .nil) .nil) .nil) (.node (.node (.node (.leaf (.mult 28019 4647 (.ofNat 1) 0)) .nil) .nil) .nil))) .nil) (.node (.node (.node .nil (.node (.node (.node (.leaf (.mult 45691 4774 (.ofNat 1) 0)) .nil) .nil) .nil)) (.node (.node (.node (.node (.leaf (.mult 9491 4708 (.ofNat 1) 0)) .nil) .nil) .nil) .nil)) .nil))))

def jac371 : JTree := .node (.node (.node (.node (.node (.node (.node (.node .nil (.node (.node (.leaf (.mult 46471 4915 (.ofNat 1) 0)) .nil) .nil)) .nil) .nil) (.node (.node .nil (.node (.node (.node (.leaf (.mult 45757 4786 (.ofNat 1) 0)) .nil) .nil) .nil)) (.node (.node (.node (.node (.leaf (.mult 34499 4688 (.ofNat 1) 0)) .nil) .nil) .nil) .nil))) (.node (.node (.node .nil (.node (.node (.node (.leaf (.trans [(1863607321, .ofNat 1)] 0)) .nil) .nil) .nil)) (.node (.node (.node (.node (.leaf (.mult 28051 4654 (.ofNat 1) 0)) .nil) .nil) .nil) .nil)) .nil)) (.node (.node (.node .nil (.node (.node (.node (.node (.leaf (.mult 16693 4622 (.ofNat 1) 0)) .nil) .nil) .nil) (.node (.node (.node (.leaf (.trans [(13059419, .ofNat 1)] 0)) .nil) .nil) .nil))) .nil) (.node (.node (.node .nil (.node (.node (.node (.leaf (.mult 28297 4746 (.ofNat 1) 0)) .nil) .nil) .nil)) (.node (.node (.node (.node (.leaf (.mult 16729 4679 (.ofNat 1) 0)) .nil) .nil) .nil) .nil)) (.node .nil (.node .nil (.node (.node (.node .nil (.leaf (.trans [(1, .ofNat 1)] 0))) .nil) .nil)))))) (.node (.node (.node (.node .nil (.node (.node (.node (.node (.leaf (.mult 11969 4603 (.ofNat 1) 0)) .nil) .nil) .nil) .nil)) (.node (.node .nil (.node (.node (.node (.leaf (.mult 45833 4802 (.ofNat 1) 0)) .nil) .nil) .nil)) .nil)) (.node (.node (.node .nil (.node (.node (.node (.leaf (.mult 45613 4752 (.ofNat 1) 0)) .nil) .nil) .nil)) .nil) .nil)) (.node (.node (.node (.node .nil (.node (.node (.node (.leaf (.trans [(11428783, .ofNat 1)] 0)) .nil) .nil) .nil)) (.node (.node (.node (.node (.leaf (.mult 16703 4644 (.ofNat 1) 0)) .nil) .nil) .nil) .nil)) .nil) (.node (.node (.node .nil (.node (.node (.node (.leaf (.mult 34607 4770 (.ofNat 1) 0)) .nil) .nil) .nil)) (.node (.node (.node (.node (.leaf (.mult 45481 4706 (.ofNat 1) 0)) .nil) .nil) .nil) .nil)) (.node (.node .nil (.node (.node (.node (.leaf (.trans [(8478773, .ofNat 1)] 0)) .nil) .nil) .nil)) .nil))))) (.node (.node (.node (.node (.node .nil (.node (.node (.node (.node (.leaf (.trans [(29052497, .ofNat 1)] 0)) .nil) .nil) .nil) (.node (.node (.node (.leaf (.trans [(12582953, .ofNat 1)] 0)) .nil) .nil) .nil))) (.node (.node .nil (.node (.node (.node (.leaf (.mult 34721 4793 (.ofNat 1) 0)) .nil) .nil) .nil)) (.node (.node (.node (.node (.leaf (.mult 11503 4686 (.ofNat 1) 0)) .nil) .nil) .nil) .nil))) (.node (.node (.node .nil (.node (.node (.node (.leaf (.mult 28393 4760 (.ofNat 1) 0)) .nil) .nil) .nil)) (.node (.node (.node (.node (.leaf (.mult 8167 701 (.ofNat 1) 0)) .nil) .nil) .nil) (.node (.node (.node (.leaf (.trans [(9472087, .ofNat 1)] 0)) .nil) .nil) .nil))) .nil)) (.node (.node (.node (.node .nil (.node (.node (.node (.leaf (.mult 45523 4717 (.ofNat 1) 0)) .nil) .nil) .nil)) (.node (.node (.node (.node (.leaf (.mult 12601 4628 (.ofNat 1) 0)) .nil) .nil) .nil) .nil)) .nil) (.node (.node (.node .nil (.node (.node (.node (.leaf (.mult 45943 4810 (.ofNat 1) 0)) .nil) .nil) .nil)) (.node (.node (.node (.node (.leaf (.mult 14669 4695 (.ofNat 1) 0)) .nil) .nil) .nil) (.node (.node (.node (.leaf (.mult 21997 4672 (.ofNat 1) 0)) .nil) .nil) .nil))) .nil))) (.node (.node (.node (.node .nil (.node (.node (.node (.node (.leaf (.mult 21821 4616 (.ofNat 1) 0)) .nil) .nil) .nil) (.node (.node (.node (.leaf (.mult 21839 4617 (.ofNat 1) 0)) .nil) .nil) .nil))) .nil) (.node (.node (.node .nil (.node (.node (.node (.leaf (.mult 34543 4739 (.ofNat 1) 0)) .nil) .nil) .nil)) (.node (.node (.node (.node (.leaf (.mult 9473 4670 (.ofNat 1) 0)) .nil) .nil) .nil) (.node (.node (.node (.leaf (.trans [(5973677, .ofNat 1)] 0)) .nil) .nil) .nil))) (.node .nil (.node .nil (.node (.node (.node .nil (.leaf (.trans [(1151, .ofNat 1)] 0))) .nil) .nil))))) (.node (.node (.node (.node .nil (.node (.node (.node (.leaf (.mult 34537 4730 (.ofNat 1) 0)) .nil) .nil) .nil)) (.node (.node (.node (.node (.leaf (.mult 21863 4637 (.ofNat 1) 0)) .nil) .nil) .nil) (.node (.node (.node (.leaf (.trans [(26067707, .ofNat 1)] 0)) .nil) .nil) .nil))) .nil) (.node (.node (.node .nil (.node (.node (.node (.leaf (.mult 16747 4778 (.ofNat 1) 0)) .nil) .nil) .nil)) (.node (.node (.node (.node (.leaf (.trans [(5611559, .ofNat 1)] 0)) .nil) .nil) .nil) .nil)) .nil))))

def jac372 : JTree := .node (.node (.node (.node .nil (.node (.node (.node .nil (.node .nil (.node (.node (.node (.node (.leaf (.mult 14699 4835 (.ofNat 1) 0)) .nil) .nil) .nil) .nil))) (.node .nil (.node .nil (.node .nil (.node (.node (.node (.leaf (.mult 22147 4844 (.ofNat 1) 0)) .nil) .nil) .nil))))) .nil)) (.node (.node (.node (.node (.node (.node (.node .nil (.node (.node (.leaf (.mult 46867 4969 (.ofNat 1) 0)) .nil) .nil)) .nil) .nil) .nil) .nil) (.node .nil (.node (.node .nil (.node .nil (.node (.node (.node (.leaf (.trans [(2870419, .ofNat 1)] 0)) .nil) .nil) .nil))) .nil))) (.node (.node (.node .nil (.node .nil (.node (.node (.node (.node (.leaf (.trans [(5399, .negSucc 0)] 0)) .nil) .nil) .nil) .nil))) (.node (.node .nil (.node (.node (.node (.node (.leaf (.trans [(130813, .negSucc 0), (211103, .ofNat 1), (683093, .ofNat 1)] 0)) .nil) .nil) .nil) .nil)) (.node .nil (.node .nil (.node (.node (.node (.leaf (.trans [(22171, .ofNat 1)] 0)) .nil) .nil) .nil))))) (.node (.node .nil (.node .nil (.node .nil (.node (.node (.node (.leaf (.trans [(22129, .ofNat 1)] 0)) .nil) .nil) .nil)))) .nil)))) (.node (.node (.node .nil (.node .nil (.node (.node .nil (.node .nil (.node (.node (.node (.leaf (.trans [(18485897, .ofNat 1)] 0)) .nil) .nil) .nil))) .nil))) (.node (.node .nil (.node (.node .nil (.node .nil (.node (.node (.node (.leaf (.trans [(1049353, .ofNat 1)] 0)) .nil) .nil) .nil))) (.node .nil (.node .nil (.node (.node (.node (.leaf (.trans [(22147, .ofNat 1)] 0)) .nil) .nil) .nil))))) (.node (.node .nil (.node .nil (.node .nil (.node (.node (.node (.leaf (.mult 22129 4842 (.ofNat 1) 0)) .nil) .nil) .nil)))) (.node .nil (.node (.node .nil (.node (.node (.node (.leaf (.trans [(8978537, .negSucc 0)] 0)) .nil) .nil) .nil)) .nil))))) (.node (.node (.node (.node .nil (.node .nil (.node (.node (.node (.node (.leaf (.mult 46027 4834 (.ofNat 1) 0)) .nil) .nil) .nil) (.node (.node (.node (.leaf (.mult 22171 4848 (.ofNat 1) 0)) .nil) .nil) .nil)))) .nil) (.node .nil (.node (.node .nil (.node .nil (.node (.node (.node (.leaf (.trans [(3762023, .ofNat 1)] 0)) .nil) .nil) .nil))) (.node .nil (.node .nil (.node (.node (.node .nil (.leaf (.trans [(46477, .negSucc 0)] 0))) .nil) .nil)))))) (.node (.node .nil (.node (.node .nil (.node (.node (.node (.node (.leaf (.mult 3797 4089 (.ofNat 1) 0)) .nil) .nil) .nil) .nil)) (.node .nil (.node .nil (.node (.node (.node (.leaf (.trans [(22171, .ofNat 1), (8978537, .ofNat 1)] 0)) .nil) .nil) .nil))))) .nil)))) (.node (.node (.node (.node (.node .nil (.node .nil (.node .nil (.node .nil (.node (.node (.node (.leaf (.mult 22157 4846 (.ofNat 1) 0)) .nil) .nil) .nil))))) .nil) (.node (.node .nil (.node (.node .nil (.node (.node (.node (.node (.leaf (.trans [(298783, .ofNat 1)] 0)) .nil) .nil) .nil) .nil)) .nil)) (.node .nil (.node .nil (.node (.node .nil (.node (.node (.node (.leaf (.mult 22159 4847 (.ofNat 1) 0)) .nil) .nil) .nil)) .nil))))) (.node (.node .nil (.node .nil (.node .nil (.node .nil (.node .nil (.node (.node (.node .nil (.leaf (.trans [(1, .ofNat 1)] 0))) .nil) .nil)))))) (.node (.node .nil (.node (.node .nil (.node (.node (.node (.node (.leaf (.trans [(534959, .negSucc 0), (49351871, .ofNat 1), (54253471, .negSucc 0)] 0)) .nil) .nil) .nil) (.node (.node (.node (.leaf (.mult 22109 4826 (.ofNat 1) 0)) .nil) .nil) .nil))) (.node .nil (.node .nil (.node (.node (.node (.leaf (.trans [(22157, .ofNat 1), (22159, .negSucc 0)] 0)) .nil) .nil) .nil))))) .nil))) (.node (.node (.node (.node (.node (.node (.node (.node .nil (.node (.node (.leaf (.mult 46051 4849 (.ofNat 1) 0)) .nil) .nil)) .nil) .nil) .nil) (.node .nil (.node .nil (.node .nil (.node (.node (.node (.leaf (.trans [(22157, .ofNat 1)] 0)) .nil) .nil) .nil))))) .nil) (.node (.node .nil (.node (.node .nil (.node (.node (.node (.node (.leaf (.trans [(22349, .ofNat 1), (1764941, .ofNat 2)] 0)) .nil) .nil) .nil) .nil)) .nil)) .nil)) (.node (.node (.node (.node .nil (.node .nil (.node (.node (.node (.node (.leaf (.trans [(11349959, .ofNat 1)] 0)) .nil) .nil) .nil) .nil))) (.node (.node .nil (.node (.node (.node (.node (.leaf (.trans [(1663, .ofNat 1)] 0)) .nil) .nil) .nil) .nil)) .nil)) (.node .nil (.node (.node .nil (.node .nil (.node (.node (.node (.leaf (.mult 12641 4832 (.ofNat 1) 0)) .nil) .nil) .nil))) (.node .nil (.node .nil (.node (.node (.node .nil (.leaf (.trans [(47351, .negSucc 0)] 0))) .nil) .nil)))))) (.node (.node .nil (.node (.node .nil (.node (.node (.node (.node (.leaf (.mult 3019 4138 (.ofNat 1) 0)) .nil) .nil) .nil) .nil)) .nil)) .nil))))

def jac373 : JTree := .node (.node (.node (.node .nil (.node (.node (.node .nil (.node .nil (.node (.node (.node (.node (.leaf (.mult 14713 4836 (.ofNat 1) 0)) .nil) .nil) .nil) (.node (.node (.node (.leaf (.mult 28433 4838 (.ofNat 1) 0)) .nil) .nil) .nil)))) (.node (.node .nil (.node (.node (.node (.node (.leaf (.trans [(234649, .ofNat 1)] 0)) .nil) .nil) .nil) .nil)) .nil)) (.node .nil (.node .nil (.node (.node .nil (.node (.node (.node (.leaf (.mult 22133 4843 (.negSucc 0) 0)) .nil) .nil) .nil)) .nil))))) (.node (.node (.node (.node (.node (.node (.node .nil (.node (.node (.leaf (.mult 47351 5008 (.ofNat 1) 0)) .nil) .nil)) .nil) .nil) .nil) .nil) .nil) (.node (.node (.node .nil (.node .nil (.node (.node (.node (.node (.leaf (.trans [(5399, .ofNat 1)] 0)) .nil) .nil) .nil) .nil))) (.node (.node .nil (.node (.node (.node (.node (.leaf (.trans [(384887, .ofNat 1), (611309, .negSucc 0), (715381, .negSucc 0)] 0)) .nil) .nil) .nil) .nil)) (.node .nil (.node .nil (.node (.node (.node (.leaf (.trans [(22129, .ofNat 1), (22133, .ofNat 1)] 0)) .nil) .nil) .nil))))) (.node .nil (.node (.node .nil (.node .nil (.node (.node (.node (.leaf (.mult 46049 4837 (.ofNat 1) 0)) .nil) .nil) .nil))) .nil))))) (.node (.node (.node .nil (.node (.node .nil (.node .nil (.node .nil (.node (.node (.node (.leaf (.mult 34759 4840 (.ofNat 1) 0)) .nil) .nil) .nil)))) .nil)) (.node (.node (.node .nil (.node .nil (.node .nil (.node (.node (.node (.leaf (.mult 28447 4841 (.ofNat 1) 0)) .nil) .nil) .nil)))) (.node (.node .nil (.node .nil (.node (.node (.node (.leaf (.trans [(3068183, .ofNat 1)] 0)) .nil) .nil) .nil))) .nil)) .nil)) (.node (.node (.node (.node .nil (.node .nil (.node (.node (.node (.node (.leaf (.trans [(13317481, .ofNat 1)] 0)) .nil) .nil) .nil) .nil))) .nil) (.node .nil (.node (.node .nil (.node .nil (.node (.node (.node (.leaf (.mult 22123 4830 (.ofNat 1) 0)) .nil) .nil) .nil))) (.node .nil (.node .nil (.node (.node (.node .nil (.leaf (.trans [(46867, .ofNat 1)] 0))) .nil) .nil)))))) (.node (.node (.node .nil (.node .nil (.node .nil (.node (.node (.node (.leaf (.mult 28439 4839 (.ofNat 1) 0)) .nil) .nil) .nil)))) (.node (.node .nil (.node (.node (.node (.node (.leaf (.mult 2861 4081 (.ofNat 1) 0)) .nil) .nil) .nil) .nil)) .nil)) .nil)))) (.node (.node (.node .nil (.node (.node .nil (.node (.node .nil (.node (.node (.node (.node (.leaf (.mult 2129 4078 (.ofNat 2) 0)) .nil) .nil) .nil) (.node (.node (.node (.leaf (.trans [(2482859, .ofNat 1)] 0)) .nil) .nil) .nil))) .nil)) (.node (.node .nil (.node .nil (.node .nil (.node (.node (.node .nil (.leaf (.trans [(1, .ofNat 1)] 0))) .nil) .nil)))) (.node .nil (.node (.node .nil (.node (.node (.node (.leaf (.mult 22153 4845 (.negSucc 0) 0)) .nil) .nil) .nil)) .nil))))) (.node (.node .nil (.node .nil (.node .nil (.node .nil (.node .nil (.node (.node (.node .nil (.leaf (.trans [(46051, .ofNat 1)] 0))) .nil) .nil)))))) (.node (.node .nil (.node (.node .nil (.node (.node (.node (.node (.leaf (.mult 14683 4829 (.ofNat 1) 0)) .nil) .nil) .nil) .nil)) (.node .nil (.node .nil (.node (.node (.node (.leaf (.trans [(22147, .ofNat 1), (22153, .ofNat 1)] 0)) .nil) .nil) .nil))))) .nil))) (.node (.node (.node (.node (.node (.node (.node (.node .nil (.node (.node (.leaf (.mult 46477 4916 (.ofNat 1) 0)) .nil) .nil)) .nil) .nil) .nil) .nil) .nil) (.node (.node (.node .nil (.node .nil (.node (.node (.node (.node (.leaf (.trans [(5399, .negSucc 0)] 0)) .nil) .nil) .nil) .nil))) (.node (.node .nil (.node (.node (.node (.node (.leaf (.mult 46021 4828 (.ofNat 1) 0)) .nil) .nil) .nil) .nil)) .nil)) .nil)) (.node (.node (.node (.node .nil (.node .nil (.node (.node (.node (.node (.leaf (.mult 11549 4833 (.ofNat 1) 0)) .nil) .nil) .nil) .nil))) (.node (.node .nil (.node (.node (.node (.node (.leaf (.trans [(2437, .ofNat 1)] 0)) .nil) .nil) .nil) .nil)) .nil)) (.node .nil (.node (.node .nil (.node .nil (.node (.node (.node (.leaf (.mult 22111 4827 (.ofNat 1) 0)) .nil) .nil) .nil))) .nil))) (.node (.node .nil (.node (.node .nil (.node (.node (.node (.node (.leaf (.mult 4549 4139 (.ofNat 1) 0)) .nil) .nil) .nil) (.node (.node (.node (.leaf (.mult 12637 4831 (.ofNat 1) 0)) .nil) .nil) .nil))) .nil)) .nil))))

end BP.EL
