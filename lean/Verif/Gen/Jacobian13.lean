import Verif.Lemmas.JTree
import Verif.Gen.Jacobian12

/-!
# Generated by tools/gen_jacobian.py
-/

namespace BP.EL

def jac341 : JTree := .node (.node (.node (.node (.node (.node (.node .nil (.node (.node (.leaf (.mult 46381 4903 (.negSucc 0) 0)) .nil) .nil)) (.node (.node (.node (.leaf (.mult 29383 1454 (.ofNat 1) 0)) .nil) .nil) .nil)) .nil) (.node (.node .nil (.node (.node (.node (.leaf (.mult 42961 3947 (.ofNat 1) 0)) .nil) .nil) .nil)) (.node (.node (.node (.node (.leaf (.mult 33289 3848 (.ofNat 1) 0)) .nil) .nil) .nil) .nil))) (.node (.node (.node .nil (.node (.node (.node (.leaf (.trans [(1858504169, .ofNat 1)] 0)) .nil) .nil) .nil)) (.node (.node (.node (.node (.leaf (.mult 26669 3811 (.ofNat 1) 0)) .nil) .nil) .nil) .nil)) (.node (.node .nil (.node (.node (.node (.leaf (.mult 43441 4022 (.ofNat 1) 0)) .nil) .nil) .nil)) (.node .nil (.node (.node (.node (.leaf (.mult 26539 3745 (.ofNat 1) 0)) .nil) .nil) .nil))))) (.node (.node (.node (.node .nil (.node (.node (.node (.leaf (.mult 11171 1681 (.negSucc 0) 0)) .nil) .nil) .nil)) (.node (.node (.node (.node (.leaf (.trans [(46665851, .ofNat 1)] 0)) .nil) .nil) .nil) (.node (.node (.node (.leaf (.trans [(12993469, .ofNat 1)] 0)) .nil) .nil) .nil))) .nil) (.node (.node (.node .nil (.node (.node (.node (.leaf (.mult 26849 3908 (.ofNat 1) 0)) .nil) .nil) .nil)) (.node (.node (.node (.node (.leaf (.mult 16381 3839 (.negSucc 0) 0)) .nil) .nil) .nil) .nil)) (.node (.node .nil (.node (.node (.node (.leaf (.mult 43499 4031 (.ofNat 1) 0)) .nil) .nil) .nil)) (.node .nil (.node (.node (.node (.leaf (.mult 16451 4011 (.ofNat 1) 0)) .nil) .nil) .nil)))))) (.node (.node (.node (.node (.node .nil (.node (.node (.node (.leaf (.trans [(10188799, .negSucc 0)] 0)) .nil) .nil) .nil)) (.node (.node (.node (.node (.leaf (.mult 11909 3756 (.ofNat 1) 0)) .nil) .nil) .nil) .nil)) (.node (.node .nil (.node (.node (.node (.leaf (.mult 43049 3963 (.ofNat 1) 0)) .nil) .nil) .nil)) (.node .nil (.node (.node (.node (.leaf (.mult 26497 3723 (.ofNat 1) 0)) .nil) .nil) .nil)))) (.node (.node (.node .nil (.node (.node (.node (.leaf (.mult 42839 3914 (.ofNat 1) 0)) .nil) .nil) .nil)) .nil) (.node (.node .nil (.node (.node (.node (.leaf (.mult 33613 4029 (.ofNat 1) 0)) .nil) .nil) .nil)) (.node (.node (.node (.node (.leaf (.trans [(481696861, .ofNat 1), (699497717, .negSucc 0)] 0)) .nil) .nil) .nil) (.node (.node (.node (.leaf (.mult 9133 3720 (.ofNat 1) 0)) .nil) .nil) .nil))))) (.node (.node (.node (.node .nil (.node (.node (.node (.leaf (.trans [(10730501, .ofNat 1)] 0)) .nil) .nil) .nil)) (.node (.node (.node (.node (.leaf (.mult 12479 3801 (.ofNat 1) 0)) .nil) .nil) .nil) .nil)) (.node .nil (.node .nil (.node (.node (.node (.leaf (.mult 14369 4009 (.ofNat 1) 0)) .nil) .nil) .nil)))) (.node (.node (.node .nil (.node (.node (.node (.leaf (.mult 33391 3931 (.ofNat 1) 0)) .nil) .nil) .nil)) (.node (.node (.node (.node (.leaf (.mult 42703 3866 (.ofNat 1) 0)) .nil) .nil) .nil) .nil)) (.node (.node .nil (.node (.node (.node (.leaf (.trans [(8730347, .ofNat 1)] 0)) .nil) .nil) .nil)) (.node .nil (.node (.node (.node (.leaf (.mult 43541 4038 (.ofNat 1) 0)) .nil) .nil) .nil))))))

def jac342 : JTree := .node (.node (.node (.node (.node (.node .nil (.node (.node (.node (.leaf (.mult 23599 1673 (.ofNat 1) 0)) .nil) .nil) .nil)) (.node (.node (.node (.node (.leaf (.trans [(43543229, .ofNat 1)] 0)) .nil) .nil) .nil) (.node (.node (.node (.leaf (.trans [(15181277, .ofNat 1)] 0)) .nil) .nil) .nil))) (.node (.node .nil (.node (.node (.node (.leaf (.mult 33503 3954 (.ofNat 1) 0)) .nil) .nil) .nil)) (.node (.node (.node (.node (.leaf (.mult 11399 3846 (.ofNat 1) 0)) .nil) .nil) .nil) .nil))) (.node (.node (.node .nil (.node (.node (.node (.leaf (.mult 26893 3921 (.ofNat 1) 0)) .nil) .nil) .nil)) (.node (.node (.node (.node (.leaf (.mult 9203 3828 (.ofNat 1) 0)) .nil) .nil) .nil) (.node (.node (.node (.leaf (.trans [(8941957, .ofNat 1)] 0)) .nil) .nil) .nil))) (.node (.node .nil (.node (.node (.node (.leaf (.mult 43261 3996 (.ofNat 1) 0)) .nil) .nil) .nil)) (.node .nil (.node (.node (.node (.leaf (.mult 20533 3735 (.ofNat 1) 0)) .nil) .nil) .nil))))) (.node (.node (.node (.node .nil (.node (.node (.node (.leaf (.mult 42743 3879 (.negSucc 0) 0)) .nil) .nil) .nil)) (.node (.node (.node (.node (.leaf (.trans [(45624977, .ofNat 1)] 0)) .nil) .nil) .nil) .nil)) (.node .nil (.node .nil (.node (.node (.node (.leaf (.mult 43321 4008 (.ofNat 1) 0)) .nil) .nil) .nil)))) (.node (.node (.node .nil (.node (.node (.node (.leaf (.mult 43133 3971 (.ofNat 1) 0)) .nil) .nil) .nil)) (.node (.node (.node (.node (.leaf (.mult 14327 3855 (.ofNat 1) 0)) .nil) .nil) .nil) (.node (.node (.node (.leaf (.mult 20753 3832 (.ofNat 1) 0)) .nil) .nil) .nil))) (.node (.node .nil (.node (.node (.node (.leaf (.mult 43411 4019 (.ofNat 1) 0)) .nil) .nil) .nil)) (.node (.node (.node (.node (.leaf (.trans [(9717164543, .negSucc 0)] 0)) .nil) .nil) .nil) (.node (.node (.node (.leaf (.mult 35027 4895 (.ofNat 1) 0)) .nil) .nil) .nil)))))) (.node (.node (.node (.node (.node .nil (.node (.node (.node (.leaf (.mult 5039 1522 (.negSucc 0) 0)) .nil) .nil) .nil)) (.node (.node (.node (.node (.leaf (.mult 20593 3773 (.ofNat 1) 0)) .nil) .nil) .nil) (.node (.node (.node (.leaf (.mult 20599 3774 (.ofNat 1) 0)) .nil) .nil) .nil))) (.node .nil (.node .nil (.node (.node (.node (.leaf (.mult 33091 3733 (.ofNat 1) 0)) .nil) .nil) .nil)))) (.node (.node (.node (.node (.node (.node (.leaf (.trans [(188339, .negSucc 0), (205571, .ofNat 1)] 0)) .nil) .nil) .nil) (.node (.node (.node (.leaf (.mult 33343 3901 (.ofNat 1) 0)) .nil) .nil) .nil)) (.node (.node (.node (.node (.leaf (.mult 9199 3827 (.ofNat 1) 0)) .nil) .nil) .nil) (.node (.node (.node (.leaf (.trans [(5796997, .ofNat 1)] 0)) .nil) .nil) .nil))) (.node (.node .nil (.node (.node (.node (.leaf (.mult 43291 4000 (.ofNat 1) 0)) .nil) .nil) .nil)) (.node (.node (.node (.node (.leaf (.mult 35933 1674 (.ofNat 1) 0)) .nil) .nil) .nil) (.node (.node (.node (.leaf (.mult 16481 4072 (.ofNat 1) 0)) (.leaf (.mult 15541 1525 (.ofNat 1) 0))) .nil) .nil))))) (.node (.node (.node (.node .nil (.node (.node (.node (.leaf (.mult 33331 3892 (.ofNat 1) 0)) .nil) .nil) .nil)) (.node (.node (.node (.node (.leaf (.mult 20641 3789 (.ofNat 1) 0)) .nil) .nil) .nil) (.node (.node (.node (.leaf (.trans [(24621941, .ofNat 1)] 0)) .nil) .nil) .nil))) (.node (.node .nil (.node (.node (.node (.leaf (.mult 43223 3991 (.ofNat 1) 0)) .nil) .nil) .nil)) (.node .nil (.node (.node (.node (.leaf (.mult 42499 3747 (.ofNat 1) 0)) .nil) .nil) .nil)))) (.node (.node (.node .nil (.node (.node (.node (.leaf (.mult 16417 3939 (.ofNat 1) 0)) .nil) .nil) .nil)) (.node (.node (.node (.node (.leaf (.trans [(5444333, .ofNat 1)] 0)) .nil) .nil) .nil) (.node (.node (.node (.leaf (.mult 42491 3742 (.ofNat 1) 0)) .nil) .nil) .nil))) (.node .nil (.node .nil (.node (.node (.node (.leaf (.mult 46337 4898 (.ofNat 1) 0)) .nil) .nil) .nil))))))

def jac343 : JTree := .node (.node (.node (.node (.node (.node (.node (.node .nil (.node (.node (.leaf (.mult 46811 4961 (.ofNat 1) 0)) .nil) .nil)) .nil) .nil) .nil) (.node .nil (.node (.node (.node (.node (.node (.leaf (.mult 10357 4087 (.ofNat 1) 0)) .nil) .nil) .nil) .nil) (.node .nil (.node (.node (.node (.leaf (.mult 14423 4110 (.ofNat 1) 0)) .nil) .nil) .nil))))) (.node (.node .nil (.node .nil (.node .nil (.node (.node (.node (.leaf (.mult 33739 4121 (.ofNat 1) 0)) .nil) .nil) .nil)))) (.node .nil (.node .nil (.node .nil (.node (.node (.node (.leaf (.mult 44159 4224 (.ofNat 1) 0)) .nil) .nil) .nil)))))) (.node (.node (.node (.node (.node (.node (.node (.node (.leaf (.trans [(490043, .ofNat 1)] 0)) .nil) .nil) .nil) .nil) .nil) (.node .nil (.node (.node (.node (.node (.leaf (.mult 14447 4153 (.ofNat 1) 0)) .nil) .nil) .nil) (.node (.node (.node (.leaf (.mult 14411 4102 (.ofNat 1) 0)) .nil) .nil) .nil)))) (.node (.node .nil (.node (.node (.node (.node (.leaf (.mult 4549 4139 (.ofNat 1) 0)) .nil) .nil) .nil) .nil)) (.node (.node (.node (.node (.node (.leaf (.trans [(2022941, .ofNat 1)] 0)) .nil) .nil) .nil) .nil) (.node .nil (.node (.node (.node (.leaf (.mult 43991 4186 (.ofNat 1) 0)) .nil) .nil) .nil))))) (.node .nil (.node (.node (.node (.node (.node (.node (.leaf (.trans [(843547, .ofNat 1)] 0)) .nil) .nil) .nil) .nil) (.node .nil (.node (.node (.node (.leaf (.mult 44071 4206 (.ofNat 1) 0)) .nil) .nil) .nil))) (.node (.node .nil (.node (.node (.node (.leaf (.mult 27143 4190 (.ofNat 1) 0)) .nil) .nil) .nil)) (.node .nil (.node (.node (.node (.leaf (.mult 46399 4906 (.ofNat 1) 0)) .nil) .nil) .nil))))))) (.node (.node (.node (.node (.node (.node (.node .nil (.node (.node (.leaf (.mult 46829 4965 (.negSucc 0) 0)) .nil) .nil)) .nil) .nil) (.node .nil (.node .nil (.node (.node (.node (.leaf (.mult 44123 4219 (.ofNat 1) 0)) .nil) .nil) .nil)))) (.node .nil (.node (.node (.node (.node (.node (.leaf (.trans [(1645717, .ofNat 2)] 0)) .nil) .nil) .nil) .nil) (.node .nil (.node (.node (.node (.leaf (.mult 44119 4217 (.ofNat 1) 0)) .nil) .nil) .nil))))) (.node .nil (.node (.node .nil (.node .nil (.node (.node (.node (.leaf (.trans [(5899219, .ofNat 1)] 0)) .nil) .nil) .nil))) (.node (.node .nil (.node (.node (.node (.leaf (.mult 43963 4172 (.ofNat 1) 0)) .nil) .nil) .nil)) (.node .nil (.node (.node (.node (.leaf (.mult 44131 4222 (.ofNat 1) 0)) .nil) .nil) .nil)))))) (.node (.node (.node .nil (.node .nil (.node (.node (.node (.node (.leaf (.trans [(5683, .negSucc 0)] 0)) .nil) .nil) .nil) (.node (.node (.node (.leaf (.mult 27067 4122 (.ofNat 1) 0)) .nil) .nil) .nil)))) (.node (.node .nil (.node (.node (.node (.node (.leaf (.mult 43867 4144 (.ofNat 1) 0)) .nil) .nil) .nil) .nil)) (.node (.node (.node (.node (.node (.leaf (.trans [(9283, .ofNat 1), (2373619, .negSucc 0)] 0)) .nil) .nil) .nil) .nil) (.node .nil (.node (.node (.node (.leaf (.mult 21169 4204 (.ofNat 1) 0)) .nil) .nil) .nil))))) (.node (.node .nil (.node .nil (.node .nil (.node (.node (.node (.leaf (.mult 21121 4171 (.ofNat 1) 0)) .nil) .nil) .nil)))) (.node (.node .nil (.node .nil (.node (.node (.node (.leaf (.mult 21101 4169 (.ofNat 1) 0)) .nil) .nil) .nil))) (.node .nil (.node .nil (.node (.node (.node (.leaf (.mult 35089 4909 (.ofNat 1) 0)) .nil) .nil) .nil)))))))

def jac344 : JTree := .node (.node (.node (.node (.node (.node (.node (.node .nil (.node (.node (.leaf (.mult 46819 4964 (.ofNat 1) 0)) .nil) .nil)) .nil) .nil) .nil) (.node .nil (.node (.node (.node (.node (.node (.leaf (.mult 43781 4093 (.ofNat 1) 0)) .nil) .nil) .nil) .nil) (.node .nil (.node (.node (.node (.leaf (.mult 14419 4106 (.ofNat 1) 0)) .nil) .nil) .nil))))) (.node (.node .nil (.node .nil (.node .nil (.node (.node (.node (.leaf (.mult 33703 4107 (.ofNat 1) 0)) .nil) .nil) .nil)))) (.node (.node .nil (.node .nil (.node (.node (.node (.leaf (.trans [(18176183, .ofNat 1)] 0)) .nil) .nil) .nil))) (.node .nil (.node .nil (.node (.node (.node (.leaf (.mult 44129 4221 (.ofNat 1) 0)) .nil) .nil) .nil)))))) (.node (.node (.node (.node (.node (.node (.node (.node (.leaf (.trans [(298783, .negSucc 0)] 0)) .nil) .nil) .nil) .nil) .nil) (.node .nil (.node .nil (.node (.node (.node (.leaf (.mult 14407 4099 (.ofNat 1) 0)) .nil) .nil) .nil)))) (.node (.node .nil (.node .nil (.node (.node (.node (.leaf (.mult 33757 4140 (.ofNat 1) 0)) .nil) .nil) .nil))) (.node (.node (.node (.node (.node (.leaf (.trans [(9857, .ofNat 1), (2738233, .ofNat 1)] 0)) .nil) .nil) .nil) .nil) (.node .nil (.node (.node (.node (.leaf (.mult 21143 4187 (.ofNat 1) 0)) .nil) .nil) .nil))))) (.node (.node .nil (.node .nil (.node .nil (.node (.node (.node (.leaf (.mult 43943 4162 (.ofNat 1) 0)) .nil) .nil) .nil)))) (.node (.node (.node (.node (.node (.node (.leaf (.mult 2861 4081 (.ofNat 1) 0)) .nil) .nil) .nil) .nil) .nil) (.node (.node .nil (.node (.node (.node (.leaf (.mult 21179 4205 (.ofNat 1) 0)) .nil) .nil) .nil)) (.node .nil (.node (.node (.node (.leaf (.mult 33791 4193 (.ofNat 1) 0)) .nil) .nil) .nil))))))) (.node (.node (.node (.node .nil (.node .nil (.node (.node (.node (.node (.leaf (.mult 43891 4152 (.ofNat 1) 0)) .nil) .nil) .nil) (.node (.node (.node (.leaf (.mult 44059 4203 (.ofNat 1) 0)) .nil) .nil) .nil)))) (.node .nil (.node (.node (.node (.node (.node (.leaf (.trans [(2373619, .ofNat 1)] 0)) .nil) .nil) .nil) .nil) (.node .nil (.node (.node (.node (.leaf (.mult 21017 4112 (.ofNat 1) 0)) .nil) .nil) .nil))))) (.node (.node .nil (.node .nil (.node .nil (.node (.node (.node (.leaf (.mult 21061 4164 (.ofNat 1) 0)) .nil) .nil) .nil)))) (.node (.node (.node (.node (.node (.node (.leaf (.mult 3797 4089 (.ofNat 1) 0)) .nil) .nil) .nil) .nil) (.node .nil (.node (.node (.node (.leaf (.trans [(7731623, .ofNat 1)] 0)) .nil) .nil) .nil))) (.node (.node .nil (.node (.node (.node (.leaf (.mult 44041 4199 (.ofNat 1) 0)) .nil) .nil) .nil)) (.node .nil (.node (.node (.node (.leaf (.mult 33751 4129 (.ofNat 1) 0)) (.leaf (.trans [(46447, .ofNat 1)] 0))) .nil) .nil)))))) (.node (.node (.node .nil (.node .nil (.node .nil (.node (.node (.node (.leaf (.mult 27061 4108 (.ofNat 1) 0)) .nil) .nil) .nil)))) (.node (.node .nil (.node (.node (.node (.node (.leaf (.mult 43793 4134 (.ofNat 1) 0)) .nil) .nil) .nil) .nil)) (.node .nil (.node .nil (.node (.node (.node (.leaf (.trans [(21169, .ofNat 1), (21179, .negSucc 0)] 0)) .nil) .nil) .nil))))) (.node (.node .nil (.node (.node (.node (.node (.node (.leaf (.mult 10333 4077 (.ofNat 1) 0)) .nil) .nil) .nil) .nil) .nil)) (.node .nil (.node .nil (.node .nil (.node (.node (.node (.leaf (.mult 46817 4963 (.ofNat 1) 0)) .nil) .nil) .nil)))))))

def jac345 : JTree := .node (.node (.node (.node (.node (.node (.node (.node .nil (.node (.node (.leaf (.mult 44053 4202 (.ofNat 1) 0)) .nil) .nil)) .nil) .nil) .nil) (.node .nil (.node (.node (.node (.node (.node (.leaf (.mult 9859 4154 (.ofNat 1) 0)) .nil) .nil) .nil) .nil) (.node .nil (.node (.node (.node (.leaf (.mult 44027 4196 (.ofNat 1) 0)) .nil) .nil) .nil))))) (.node .nil (.node (.node (.node (.node (.node (.node (.leaf (.mult 2129 4078 (.ofNat 2) 0)) .nil) .nil) .nil) .nil) (.node .nil (.node (.node (.node (.leaf (.trans [(3377897, .ofNat 1)] 0)) .nil) .nil) .nil))) (.node .nil (.node .nil (.node (.node (.node (.leaf (.mult 44111 4216 (.ofNat 1) 0)) .nil) .nil) .nil)))))) (.node (.node (.node (.node (.node (.node (.node (.node (.leaf (.trans [(234649, .negSucc 0)] 0)) .nil) .nil) .nil) .nil) .nil) (.node .nil (.node .nil (.node (.node (.node (.leaf (.mult 27031 4097 (.ofNat 2) 0)) .nil) .nil) .nil)))) (.node (.node .nil (.node (.node (.node (.node (.leaf (.trans [(517280249, .ofNat 1)] 0)) .nil) .nil) .nil) .nil)) (.node (.node (.node (.node (.node (.leaf (.trans [(2022941, .ofNat 1)] 0)) .nil) .nil) .nil) .nil) (.node .nil (.node (.node (.node (.leaf (.mult 9319 4117 (.ofNat 1) 0)) .nil) .nil) .nil))))) (.node (.node .nil (.node .nil (.node .nil (.node (.node (.node (.leaf (.mult 21089 4168 (.ofNat 1) 0)) .nil) .nil) .nil)))) (.node (.node (.node (.node (.node (.node (.leaf (.mult 2617 4082 (.ofNat 1) 0)) .nil) .nil) .nil) .nil) (.node .nil (.node (.node (.node (.leaf (.mult 43961 4165 (.ofNat 1) 0)) .nil) .nil) .nil))) (.node (.node .nil (.node (.node (.node (.leaf (.mult 21163 4201 (.ofNat 1) 0)) .nil) .nil) .nil)) (.node .nil (.node (.node (.node (.leaf (.mult 46807 4960 (.ofNat 1) 0)) .nil) .nil) .nil))))))) (.node (.node (.node (.node .nil (.node .nil (.node (.node (.node (.node (.leaf (.mult 43889 4151 (.ofNat 1) 0)) .nil) .nil) .nil) (.node (.node (.node (.leaf (.mult 12511 4088 (.negSucc 0) 0)) .nil) .nil) .nil)))) (.node .nil (.node (.node (.node (.node (.node (.leaf (.trans [(765097129, .ofNat 1)] 0)) .nil) .nil) .nil) .nil) (.node .nil (.node (.node (.node (.leaf (.mult 21023 4116 (.ofNat 1) 0)) .nil) .nil) .nil))))) (.node .nil (.node (.node .nil (.node .nil (.node (.node (.node (.leaf (.trans [(2366047, .ofNat 1)] 0)) .nil) .nil) .nil))) (.node (.node .nil (.node (.node (.node (.leaf (.mult 27127 4174 (.ofNat 1) 0)) .nil) .nil) .nil)) (.node .nil (.node (.node (.node (.leaf (.mult 33749 4127 (.ofNat 1) 0)) .nil) .nil) .nil)))))) (.node (.node .nil (.node (.node .nil (.node (.node (.node (.node (.leaf (.mult 43853 4143 (.ofNat 1) 0)) .nil) .nil) .nil) (.node (.node (.node (.leaf (.trans [(11563803071, .ofNat 1)] 0)) .nil) .nil) .nil))) (.node .nil (.node .nil (.node (.node (.node (.leaf (.trans [(21157, .ofNat 1), (21163, .negSucc 0)] 0)) .nil) .nil) .nil))))) (.node (.node .nil (.node .nil (.node .nil (.node (.node (.node (.leaf (.mult 27077 4125 (.ofNat 1) 0)) .nil) .nil) .nil)))) (.node .nil (.node .nil (.node .nil (.node (.node (.node (.leaf (.mult 46439 4910 (.ofNat 1) 0)) .nil) .nil) .nil)))))))

def jac346 : JTree := .node (.node (.node (.node (.node (.node (.node (.node .nil (.node (.node (.leaf (.mult 44179 4227 (.negSucc 0) 0)) .nil) .nil)) .nil) .nil) (.node .nil (.node .nil (.node (.node (.node (.leaf (.mult 20983 4095 (.ofNat 1) 0)) .nil) .nil) .nil)))) (.node .nil (.node (.node (.node (.node (.node (.leaf (.trans [(2594927, .ofNat 1)] 0)) .nil) .nil) .nil) .nil) (.node .nil (.node (.node (.node (.leaf (.mult 21157 4197 (.ofNat 1) 0)) .nil) .nil) .nil))))) (.node .nil (.node (.node .nil (.node .nil (.node (.node (.node (.leaf (.trans [(1805291, .ofNat 1)] 0)) .nil) .nil) .nil))) (.node .nil (.node .nil (.node (.node (.node (.leaf (.mult 44171 4225 (.ofNat 1) 0)) .nil) .nil) .nil)))))) (.node (.node (.node .nil (.node .nil (.node .nil (.node (.node (.node (.leaf (.mult 27191 4207 (.ofNat 1) 0)) .nil) .nil) .nil)))) (.node (.node .nil (.node (.node (.node (.node (.leaf (.trans [(7745347, .ofNat 1)] 0)) .nil) .nil) .nil) (.node (.node (.node (.leaf (.trans [(3178597, .ofNat 2)] 0)) .nil) .nil) .nil))) (.node (.node (.node (.node (.node (.leaf (.mult 7901 4092 (.ofNat 1) 0)) .nil) .nil) .nil) .nil) (.node .nil (.node (.node (.node (.leaf (.mult 9341 4128 (.ofNat 1) 0)) .nil) .nil) .nil))))) (.node (.node .nil (.node .nil (.node .nil (.node (.node (.node (.leaf (.mult 14461 4178 (.ofNat 1) 0)) .nil) .nil) .nil)))) (.node (.node .nil (.node .nil (.node (.node (.node (.leaf (.mult 43973 4179 (.ofNat 1) 0)) .nil) .nil) .nil))) (.node .nil (.node .nil (.node (.node (.node (.leaf (.mult 33797 4194 (.ofNat 1) 0)) .nil) .nil) .nil))))))) (.node (.node (.node (.node .nil (.node .nil (.node (.node (.node (.node (.leaf (.trans [(11159801, .ofNat 1)] 0)) .nil) .nil) .nil) (.node (.node (.node (.leaf (.mult 14401 4098 (.ofNat 1) 0)) .nil) .nil) .nil)))) (.node (.node .nil (.node (.node (.node (.node (.leaf (.trans [(1764941, .ofNat 2)] 0)) .nil) .nil) .nil) .nil)) (.node (.node (.node (.node (.node (.leaf (.trans [(652061831, .ofNat 1)] 0)) .nil) .nil) .nil) .nil) .nil))) (.node .nil (.node (.node .nil (.node .nil (.node (.node (.node (.leaf (.mult 12517 4148 (.ofNat 1) 0)) .nil) .nil) .nil))) (.node (.node .nil (.node (.node (.node (.leaf (.mult 43997 4188 (.ofNat 1) 0)) .nil) .nil) .nil)) (.node .nil (.node (.node (.node (.leaf (.mult 35081 4905 (.ofNat 1) 0)) (.leaf (.trans [(47303, .ofNat 1)] 0))) .nil) .nil)))))) (.node (.node (.node .nil (.node .nil (.node .nil (.node (.node (.node (.leaf (.mult 33809 4208 (.ofNat 1) 0)) .nil) .nil) .nil)))) (.node (.node .nil (.node (.node (.node (.node (.leaf (.mult 43787 4132 (.ofNat 1) 0)) .nil) .nil) .nil) .nil)) (.node .nil (.node .nil (.node (.node (.node (.leaf (.mult 44101 4214 (.ofNat 1) 0)) .nil) .nil) .nil))))) (.node (.node .nil (.node (.node (.node (.node (.node (.leaf (.mult 9281 4083 (.ofNat 1) 0)) .nil) .nil) .nil) .nil) (.node .nil (.node (.node (.node (.leaf (.mult 21001 4100 (.ofNat 1) 0)) .nil) .nil) .nil)))) (.node .nil (.node .nil (.node .nil (.node (.node (.node (.leaf (.mult 43987 4185 (.ofNat 1) 0)) .nil) .nil) .nil)))))))

def jac347 : JTree := .node (.node (.node (.node (.node (.node (.node (.node (.node .nil (.node (.node (.leaf (.mult 47287 5001 (.ofNat 1) 0)) .nil) .nil)) .nil) .nil) .nil) (.node .nil (.node (.node (.node (.node (.node (.leaf (.mult 10337 4079 (.ofNat 1) 0)) .nil) .nil) .nil) .nil) .nil))) (.node .nil (.node (.node .nil (.node .nil (.node (.node (.node (.leaf (.trans [(1062025673, .ofNat 1)] 0)) .nil) .nil) .nil))) (.node .nil (.node .nil (.node (.node (.node (.leaf (.mult 16561 4215 (.ofNat 1) 0)) .nil) .nil) .nil)))))) (.node (.node (.node (.node (.node (.node (.node (.node (.leaf (.trans [(509, .negSucc 0)] 0)) .nil) .nil) .nil) .nil) .nil) (.node .nil (.node (.node (.node (.node (.leaf (.mult 14449 4156 (.ofNat 1) 0)) .nil) .nil) .nil) (.node (.node (.node (.leaf (.mult 27091 4158 (.ofNat 1) 0)) .nil) .nil) .nil)))) (.node (.node .nil (.node (.node (.node (.node (.leaf (.trans [(406245647, .ofNat 1)] 0)) .nil) .nil) .nil) .nil)) (.node (.node (.node (.node (.node (.leaf (.trans [(2073959, .ofNat 1)] 0)) .nil) .nil) .nil) .nil) (.node .nil (.node (.node (.node (.leaf (.mult 9377 4218 (.ofNat 1) 0)) .nil) .nil) .nil))))) (.node (.node .nil (.node .nil (.node .nil (.node (.node (.node (.leaf (.mult 14479 4180 (.ofNat 1) 0)) .nil) .nil) .nil)))) (.node (.node (.node (.node (.node (.node (.leaf (.mult 2683 4136 (.ofNat 1) 0)) .nil) .nil) .nil) .nil) (.node .nil (.node (.node (.node (.leaf (.mult 43951 4163 (.ofNat 1) 0)) .nil) .nil) .nil))) (.node (.node .nil (.node (.node (.node (.leaf (.mult 21139 4177 (.ofNat 1) 0)) .nil) .nil) .nil)) (.node .nil (.node (.node (.node (.leaf (.mult 35227 4959 (.ofNat 1) 0)) .nil) .nil) .nil))))))) (.node (.node (.node (.node (.node (.node (.node .nil (.node (.node (.leaf (.mult 47303 5004 (.negSucc 0) 0)) .nil) .nil)) .nil) .nil) (.node .nil (.node .nil (.node (.node (.node (.leaf (.mult 9323 4120 (.ofNat 2) 0)) .nil) .nil) .nil)))) .nil) (.node .nil (.node (.node .nil (.node .nil (.node (.node (.node (.leaf (.trans [(920054867, .ofNat 1)] 0)) .nil) .nil) .nil))) (.node (.node .nil (.node (.node (.node (.leaf (.mult 43969 4173 (.ofNat 1) 0)) .nil) .nil) .nil)) (.node .nil (.node (.node (.node (.leaf (.mult 6947 4226 (.ofNat 1) 0)) .nil) .nil) .nil)))))) (.node (.node (.node .nil (.node .nil (.node (.node (.node (.node (.leaf (.trans [(5683, .ofNat 1)] 0)) .nil) .nil) .nil) .nil))) (.node (.node .nil (.node (.node (.node (.node (.leaf (.mult 43801 4142 (.ofNat 1) 0)) .nil) .nil) .nil) .nil)) (.node (.node (.node (.node (.node (.leaf (.mult 7907 4094 (.ofNat 1) 0)) .nil) .nil) .nil) .nil) (.node .nil (.node (.node (.node (.leaf (.trans [(21121, .ofNat 1), (21139, .negSucc 0)] 0)) .nil) .nil) .nil))))) (.node (.node .nil (.node .nil (.node .nil (.node (.node (.node (.leaf (.mult 44089 4211 (.ofNat 1) 0)) .nil) .nil) .nil)))) (.node (.node .nil (.node .nil (.node (.node (.node (.leaf (.mult 43933 4157 (.ofNat 1) 0)) .nil) .nil) .nil))) (.node .nil (.node .nil (.node (.node (.node (.leaf (.mult 35083 4908 (.ofNat 1) 0)) .nil) .nil) .nil)))))))) (.node (.node (.node (.node (.node (.node (.node (.node .nil (.node (.node (.leaf (.mult 47297 5003 (.ofNat 1) 0)) .nil) .nil)) .nil) .nil) .nil) (.node .nil (.node (.node (.node (.node (.node (.leaf (.trans [(1009056547, .ofNat 1)] 0)) .nil) .nil) .nil) .nil) (.node .nil (.node (.node (.node (.leaf (.mult 14431 4126 (.ofNat 1) 0)) .nil) .nil) .nil))))) (.node (.node .nil (.node .nil (.node .nil (.node (.node (.node (.leaf (.mult 33769 4160 (.ofNat 1) 0)) .nil) .nil) .nil)))) (.node (.node .nil (.node .nil (.node (.node (.node (.leaf (.trans [(702000751, .ofNat 1)] 0)) .nil) .nil) .nil))) (.node .nil (.node .nil (.node (.node (.node (.leaf (.mult 16519 4181 (.ofNat 1) 0)) .nil) .nil) .nil)))))) (.node (.node (.node .nil (.node .nil (.node .nil (.node (.node (.node (.leaf (.mult 27107 4161 (.ofNat 1) 0)) .nil) .nil) .nil)))) (.node (.node .nil (.node .nil (.node (.node (.node (.leaf (.trans [(11798089, .ofNat 1)] 0)) .nil) .nil) .nil))) (.node (.node (.node (.node (.node (.leaf (.trans [(9281, .ofNat 1), (2594927, .ofNat 1)] 0)) .nil) .nil) .nil) .nil) (.node .nil (.node (.node (.node (.leaf (.mult 9391 4220 (.ofNat 1) 0)) .nil) .nil) .nil))))) (.node (.node .nil (.node .nil (.node .nil (.node (.node (.node (.leaf (.mult 14503 4210 (.ofNat 1) 0)) .nil) .nil) .nil)))) (.node (.node (.node (.node (.node (.node (.leaf (.mult 3019 4138 (.ofNat 1) 0)) .nil) .nil) .nil) .nil) .nil) (.node .nil (.node .nil (.node (.node (.node (.leaf (.mult 33773 4192 (.ofNat 1) 0)) .nil) .nil) .nil))))))) (.node (.node (.node (.node .nil (.node .nil (.node (.node (.node (.node (.leaf (.trans [(13094359, .ofNat 1)] 0)) .nil) .nil) .nil) (.node (.node (.node (.leaf (.mult 27043 4101 (.ofNat 2) 0)) .nil) .nil) .nil)))) (.node .nil (.node .nil (.node .nil (.node (.node (.node (.leaf (.mult 9311 4109 (.ofNat 1) 0)) .nil) .nil) .nil))))) (.node (.node .nil (.node .nil (.node .nil (.node (.node (.node (.leaf (.mult 27109 4166 (.ofNat 1) 0)) .nil) .nil) .nil)))) (.node (.node .nil (.node .nil (.node (.node (.node (.leaf (.mult 21059 4147 (.ofNat 1) 0)) .nil) .nil) .nil))) (.node (.node .nil (.node (.node (.node (.leaf (.mult 27179 4200 (.ofNat 1) 0)) .nil) .nil) .nil)) (.node .nil (.node (.node (.node (.leaf (.mult 43783 4130 (.ofNat 1) 0)) (.leaf (.trans [(46829, .negSucc 0)] 0))) .nil) .nil)))))) (.node (.node (.node .nil (.node .nil (.node .nil (.node (.node (.node (.leaf (.mult 27103 4159 (.ofNat 1) 0)) .nil) .nil) .nil)))) (.node (.node .nil (.node (.node (.node (.node (.leaf (.mult 43789 4133 (.ofNat 1) 0)) .nil) .nil) .nil) .nil)) (.node .nil (.node .nil (.node (.node (.node (.leaf (.mult 16553 4213 (.ofNat 1) 0)) .nil) .nil) .nil))))) (.node (.node .nil (.node (.node (.node (.node (.node (.leaf (.mult 9857 4150 (.ofNat 1) 0)) .nil) .nil) .nil) .nil) (.node .nil (.node (.node (.node (.leaf (.mult 21011 4103 (.ofNat 1) 0)) .nil) .nil) .nil)))) (.node .nil (.node .nil (.node .nil (.node (.node (.node (.leaf (.mult 47293 5002 (.ofNat 1) 0)) .nil) .nil) .nil))))))))

def jac348 : JTree := .node (.node (.node (.node (.node (.node (.node (.node .nil (.node (.node (.leaf (.mult 46441 4911 (.ofNat 1) 0)) .nil) .nil)) .nil) .nil) .nil) (.node .nil (.node (.node (.node (.node (.node (.leaf (.mult 9283 4084 (.ofNat 1) 0)) .nil) .nil) .nil) .nil) (.node .nil (.node (.node (.node (.leaf (.mult 14519 4212 (.ofNat 1) 0)) .nil) .nil) .nil))))) (.node .nil (.node (.node .nil (.node .nil (.node (.node (.node (.leaf (.trans [(3294803, .ofNat 1)] 0)) .nil) .nil) .nil))) (.node .nil (.node .nil (.node (.node (.node (.leaf (.mult 16529 4183 (.ofNat 1) 0)) .nil) .nil) .nil)))))) (.node (.node (.node (.node (.node (.node (.node (.node (.leaf (.trans [(623981, .ofNat 1)] 0)) .nil) .nil) .nil) .nil) .nil) (.node .nil (.node .nil (.node (.node (.node (.leaf (.mult 16487 4111 (.ofNat 1) 0)) .nil) .nil) .nil)))) (.node (.node .nil (.node (.node (.node (.node (.leaf (.mult 9343 4131 (.ofNat 1) 0)) .nil) .nil) .nil) (.node (.node (.node (.leaf (.mult 33767 4146 (.ofNat 1) 0)) .nil) .nil) .nil))) (.node (.node (.node (.node (.node (.leaf (.trans [(652061831, .ofNat 1)] 0)) .nil) .nil) .nil) .nil) (.node .nil (.node (.node (.node (.leaf (.mult 9337 4124 (.ofNat 1) 0)) .nil) .nil) .nil))))) (.node (.node .nil (.node .nil (.node .nil (.node (.node (.node (.leaf (.mult 21107 4170 (.ofNat 1) 0)) .nil) .nil) .nil)))) (.node (.node (.node (.node (.node (.node (.leaf (.trans [(1112521, .ofNat 1)] 0)) .nil) .nil) .nil) .nil) .nil) (.node (.node .nil (.node (.node (.node (.leaf (.mult 21149 4191 (.ofNat 1) 0)) .nil) .nil) .nil)) (.node .nil (.node (.node (.node (.leaf (.mult 47279 5000 (.ofNat 1) 0)) .nil) .nil) .nil))))))) (.node (.node (.node (.node .nil (.node .nil (.node (.node (.node (.node (.leaf (.mult 43913 4155 (.ofNat 1) 0)) .nil) .nil) .nil) (.node (.node (.node (.leaf (.mult 12503 4080 (.negSucc 0) 0)) .nil) .nil) .nil)))) (.node .nil (.node (.node (.node (.node (.node (.leaf (.trans [(2433481, .ofNat 1)] 0)) .nil) .nil) .nil) .nil) (.node .nil (.node (.node (.node (.leaf (.mult 21019 4114 (.ofNat 1) 0)) .nil) .nil) .nil))))) (.node (.node .nil (.node .nil (.node .nil (.node (.node (.node (.leaf (.mult 44087 4209 (.ofNat 1) 0)) .nil) .nil) .nil)))) (.node (.node (.node (.node (.node (.node (.leaf (.mult 2879 4090 (.ofNat 1) 0)) .nil) .nil) .nil) .nil) (.node .nil (.node (.node (.node (.leaf (.trans [(2496713, .ofNat 1)] 0)) .nil) .nil) .nil))) (.node (.node .nil (.node (.node (.node (.leaf (.mult 44029 4198 (.negSucc 0) 0)) .nil) .nil) .nil)) (.node .nil (.node (.node (.node (.leaf (.mult 33721 4118 (.ofNat 1) 0)) (.leaf (.trans [(44179, .negSucc 0)] 0))) .nil) .nil)))))) (.node (.node .nil (.node (.node .nil (.node (.node (.node (.node (.leaf (.mult 14437 4145 (.ofNat 1) 0)) .nil) .nil) .nil) (.node (.node (.node (.leaf (.trans [(1343399, .ofNat 2)] 0)) .nil) .nil) .nil))) (.node .nil (.node .nil (.node (.node (.node (.leaf (.trans [(21143, .ofNat 1), (21149, .negSucc 0)] 0)) .nil) .nil) .nil))))) (.node (.node .nil (.node (.node (.node (.node (.node (.leaf (.mult 10343 4086 (.ofNat 1) 0)) .nil) .nil) .nil) .nil) (.node .nil (.node (.node (.node (.leaf (.mult 21013 4105 (.ofNat 1) 0)) .nil) .nil) .nil)))) (.node .nil (.node .nil (.node .nil (.node (.node (.node (.leaf (.mult 35251 4962 (.ofNat 1) 0)) .nil) .nil) .nil)))))))

def jac349 : JTree := .node (.node (.node (.node (.node (.node (.node (.node .nil (.node (.node (.leaf (.mult 46447 4912 (.negSucc 0) 0)) .nil) .nil)) .nil) .nil) (.node .nil (.node .nil (.node (.node (.node (.leaf (.mult 27017 4085 (.ofNat 1) 0)) .nil) .nil) .nil)))) (.node .nil (.node (.node (.node (.node (.node (.leaf (.trans [(2738233, .ofNat 1)] 0)) .nil) .nil) .nil) .nil) (.node .nil (.node (.node (.node (.leaf (.mult 27073 4123 (.ofNat 1) 0)) .nil) .nil) .nil))))) (.node .nil (.node (.node .nil (.node .nil (.node (.node (.node (.leaf (.trans [(1904989, .ofNat 1)] 0)) .nil) .nil) .nil))) (.node .nil (.node .nil (.node (.node (.node (.leaf (.mult 16547 4184 (.ofNat 1) 0)) .nil) .nil) .nil)))))) (.node (.node (.node .nil (.node .nil (.node (.node (.node (.node (.leaf (.trans [(5683, .negSucc 0)] 0)) .nil) .nil) .nil) (.node (.node (.node (.leaf (.mult 27059 4104 (.ofNat 1) 0)) .nil) .nil) .nil)))) (.node .nil (.node (.node (.node (.node (.node (.leaf (.trans [(9859, .ofNat 1), (2433481, .negSucc 0)] 0)) .nil) .nil) .nil) .nil) (.node .nil (.node (.node (.node (.leaf (.mult 9293 4096 (.ofNat 1) 0)) .nil) .nil) .nil))))) (.node (.node .nil (.node .nil (.node .nil (.node (.node (.node (.leaf (.mult 14489 4182 (.ofNat 1) 0)) .nil) .nil) .nil)))) (.node (.node .nil (.node .nil (.node (.node (.node (.leaf (.mult 21067 4167 (.ofNat 1) 0)) .nil) .nil) .nil))) (.node .nil (.node .nil (.node (.node (.node (.leaf (.mult 44021 4195 (.ofNat 1) 0)) .nil) .nil) .nil))))))) (.node (.node (.node (.node (.node (.node (.node (.node (.node (.leaf (.trans [(1063, .ofNat 1)] 0)) .nil) .nil) .nil) .nil) .nil) (.node .nil (.node (.node (.node (.node (.leaf (.mult 11437 4149 (.ofNat 1) 0)) .nil) .nil) .nil) (.node (.node (.node (.leaf (.mult 16493 4113 (.ofNat 1) 0)) .nil) .nil) .nil)))) (.node (.node .nil (.node (.node (.node (.node (.leaf (.mult 9371 4137 (.ofNat 1) 0)) .nil) .nil) .nil) .nil)) (.node (.node (.node (.node (.node (.leaf (.trans [(2073959, .ofNat 1)] 0)) .nil) .nil) .nil) .nil) .nil))) (.node (.node .nil (.node .nil (.node .nil (.node (.node (.node .nil (.leaf (.trans [(1, .ofNat 1)] 0))) .nil) .nil)))) (.node (.node .nil (.node .nil (.node (.node (.node (.leaf (.mult 21031 4141 (.ofNat 1) 0)) .nil) .nil) .nil))) (.node (.node .nil (.node (.node (.node (.leaf (.mult 44017 4189 (.ofNat 1) 0)) .nil) .nil) .nil)) (.node .nil (.node (.node (.node (.leaf (.mult 35069 4904 (.ofNat 1) 0)) .nil) .nil) .nil)))))) (.node (.node (.node .nil (.node .nil (.node .nil (.node (.node (.node (.leaf (.mult 33713 4115 (.ofNat 1) 0)) .nil) .nil) .nil)))) (.node (.node .nil (.node (.node (.node (.node (.leaf (.mult 9349 4135 (.ofNat 1) 0)) .nil) .nil) .nil) (.node (.node (.node (.leaf (.trans [(4887313957, .ofNat 1)] 0)) .nil) .nil) .nil))) (.node .nil (.node .nil (.node (.node (.node (.leaf (.mult 16567 4223 (.ofNat 1) 0)) .nil) .nil) .nil))))) (.node (.node .nil (.node (.node (.node (.node (.node (.leaf (.mult 43777 4091 (.ofNat 1) 0)) .nil) .nil) .nil) .nil) .nil)) (.node .nil (.node .nil (.node .nil (.node (.node (.node (.leaf (.mult 46411 4907 (.ofNat 1) 0)) .nil) .nil) .nil)))))))

def jac350 : JTree := .node (.node (.node (.node (.node .nil (.node (.node .nil (.node (.node (.node (.leaf (.mult 44711 4425 (.ofNat 1) 0)) .nil) .nil) .nil)) (.node (.node (.node (.node (.leaf (.mult 7927 4339 (.ofNat 1) 0)) .nil) .nil) .nil) .nil))) (.node (.node (.node .nil (.node (.node (.node (.leaf (.mult 27527 4374 (.ofNat 1) 0)) .nil) .nil) .nil)) (.node (.node (.node (.node (.leaf (.mult 10391 4272 (.ofNat 1) 0)) .nil) .nil) .nil) (.node (.node (.node (.leaf (.trans [(9187627, .ofNat 1)] 0)) .nil) .nil) .nil))) .nil)) (.node (.node (.node .nil (.node (.node (.node (.node (.leaf (.mult 33851 4250 (.ofNat 1) 0)) .nil) .nil) .nil) (.node (.node (.node (.leaf (.mult 33889 4278 (.ofNat 1) 0)) .nil) .nil) .nil))) .nil) (.node (.node (.node .nil (.node (.node (.node (.leaf (.trans [(1114988939, .negSucc 0)] 0)) .nil) .nil) .nil)) (.node (.node (.node (.node (.leaf (.trans [(363703, .ofNat 1)] 0)) .nil) .nil) .nil) .nil)) (.node .nil (.node .nil (.node (.node (.node .nil (.leaf (.trans [(1123, .negSucc 0)] 0))) .nil) .nil)))))) (.node (.node (.node (.node .nil (.node (.node (.node (.node (.leaf (.mult 11927 4232 (.ofNat 1) 0)) .nil) .nil) .nil) .nil)) (.node (.node .nil (.node (.node (.node (.leaf (.mult 34217 4441 (.ofNat 1) 0)) .nil) .nil) .nil)) (.node (.node (.node (.node (.leaf (.mult 14543 4327 (.ofNat 1) 0)) .nil) .nil) .nil) .nil))) (.node (.node (.node .nil (.node (.node (.node (.leaf (.mult 27673 4406 (.ofNat 1) 0)) .nil) .nil) .nil)) (.node (.node (.node (.node (.leaf (.mult 8161 696 (.ofNat 1) 0)) .nil) .nil) .nil) (.node (.node (.node (.leaf (.mult 21379 4296 (.ofNat 1) 0)) .nil) .nil) .nil))) (.node .nil (.node .nil (.node (.node (.node (.leaf (.mult 44927 4464 (.ofNat 1) 0)) .nil) .nil) .nil))))) (.node (.node (.node (.node .nil (.node (.node (.node (.leaf (.mult 21401 4358 (.negSucc 0) 0)) .nil) .nil) .nil)) (.node (.node (.node (.node (.leaf (.mult 7069 4260 (.ofNat 1) 0)) .nil) .nil) .nil) (.node (.node (.node (.leaf (.trans [(15298681, .ofNat 1)] 0)) .nil) .nil) .nil))) (.node .nil (.node .nil (.node (.node (.node .nil (.leaf (.trans [(1, .ofNat 1)] 0))) .nil) .nil)))) (.node (.node (.node .nil (.node (.node (.node (.leaf (.mult 44887 4454 (.ofNat 1) 0)) .nil) .nil) .nil)) (.node (.node (.node (.node (.leaf (.mult 16633 4333 (.ofNat 1) 0)) .nil) .nil) .nil) .nil)) .nil)))) (.node (.node (.node (.node (.node (.node (.node .nil (.node (.node (.leaf (.mult 46831 4966 (.ofNat 1) 0)) .nil) .nil)) .nil) .nil) (.node (.node .nil (.node (.node (.node (.leaf (.mult 34171 4433 (.ofNat 1) 0)) .nil) .nil) .nil)) (.node (.node (.node (.node (.leaf (.mult 27409 4320 (.ofNat 1) 0)) .nil) .nil) .nil) .nil))) (.node (.node (.node .nil (.node (.node (.node (.leaf (.mult 5387 4382 (.ofNat 1) 0)) .nil) .nil) .nil)) (.node (.node (.node (.node (.leaf (.mult 12539 4288 (.ofNat 1) 0)) .nil) .nil) .nil) .nil)) .nil)) (.node (.node (.node .nil (.node (.node (.node (.node (.leaf (.trans [(31220947, .negSucc 0)] 0)) .nil) .nil) .nil) .nil)) .nil) (.node (.node (.node .nil (.node (.node (.node (.leaf (.mult 44621 4392 (.ofNat 1) 0)) .nil) .nil) .nil)) (.node (.node (.node (.node (.leaf (.mult 21397 4315 (.ofNat 1) 0)) .nil) .nil) .nil) (.node (.node (.node (.leaf (.trans [(5943389, .ofNat 1)] 0)) .nil) .nil) .nil))) (.node .nil (.node .nil (.node (.node (.node .nil (.leaf (.trans [(1459, .ofNat 1)] 0))) .nil) .nil)))))) (.node (.node (.node (.node .nil (.node (.node (.node (.node (.leaf (.mult 11443 4236 (.ofNat 1) 0)) .nil) .nil) .nil) (.node (.node (.node (.leaf (.trans [(15213743, .ofNat 1)] 0)) .nil) .nil) .nil))) (.node (.node .nil (.node (.node (.node (.leaf (.mult 11941 4449 (.ofNat 1) 0)) .nil) .nil) .nil)) .nil)) (.node (.node (.node .nil (.node (.node (.node (.leaf (.mult 27617 4398 (.ofNat 1) 0)) .nil) .nil) .nil)) (.node (.node (.node (.node (.leaf (.mult 44273 4308 (.ofNat 1) 0)) .nil) .nil) .nil) .nil)) (.node .nil (.node .nil (.node (.node (.node (.leaf (.mult 21517 4470 (.ofNat 1) 0)) .nil) .nil) .nil))))) (.node (.node (.node (.node .nil (.node (.node (.node (.leaf (.mult 21407 4366 (.ofNat 1) 0)) .nil) .nil) .nil)) (.node (.node (.node (.node (.leaf (.mult 16607 4275 (.ofNat 1) 0)) .nil) .nil) .nil) .nil)) (.node .nil (.node .nil (.node (.node (.node (.leaf (.mult 21493 4462 (.ofNat 1) 0)) .nil) .nil) .nil)))) (.node (.node (.node .nil (.node (.node (.node (.leaf (.mult 34123 4417 (.ofNat 1) 0)) .nil) .nil) .nil)) (.node (.node (.node (.node (.leaf (.trans [(3450901, .ofNat 1)] 0)) .nil) .nil) .nil) .nil)) .nil))))

def jac351 : JTree := .node (.node (.node (.node (.node .nil (.node (.node .nil (.node (.node (.node (.leaf (.mult 16651 4429 (.ofNat 1) 0)) .nil) .nil) .nil)) (.node (.node (.node (.node (.leaf (.trans [(19386011, .ofNat 1)] 0)) .nil) .nil) .nil) .nil))) (.node (.node (.node .nil (.node (.node (.node (.leaf (.mult 9433 4379 (.ofNat 1) 0)) .nil) .nil) .nil)) (.node (.node (.node (.node (.leaf (.mult 27283 4287 (.ofNat 1) 0)) .nil) .nil) .nil) .nil)) .nil)) (.node (.node (.node .nil (.node (.node (.node (.node (.leaf (.mult 5953 686 (.ofNat 1) 0)) .nil) .nil) .nil) .nil)) .nil) (.node (.node (.node .nil (.node (.node (.node (.leaf (.mult 27541 4388 (.ofNat 1) 0)) .nil) .nil) .nil)) (.node (.node (.node (.node (.leaf (.trans [(129799, .ofNat 1)] 0)) .nil) .nil) .nil) (.node (.node (.node (.leaf (.trans [(18302083, .ofNat 1)] 0)) .nil) .nil) .nil))) (.node .nil (.node .nil (.node (.node (.node .nil (.leaf (.trans [(419, .ofNat 1)] 0))) .nil) .nil)))))) (.node (.node (.node (.node .nil (.node (.node (.node (.node (.leaf (.trans [(73543, .ofNat 1)] 0)) .nil) .nil) .nil) .nil)) (.node (.node .nil (.node (.node (.node (.leaf (.mult 44809 4445 (.ofNat 1) 0)) .nil) .nil) .nil)) .nil)) (.node (.node (.node .nil (.node (.node (.node (.leaf (.mult 34033 4396 (.ofNat 1) 0)) .nil) .nil) .nil)) (.node (.node (.node (.node (.leaf (.mult 44207 4297 (.ofNat 1) 0)) .nil) .nil) .nil) (.node (.node (.node (.leaf (.mult 33893 4304 (.ofNat 1) 0)) .nil) .nil) .nil))) (.node .nil (.node .nil (.node (.node (.node (.leaf (.mult 21499 4465 (.ofNat 1) 0)) .nil) .nil) .nil))))) (.node (.node (.node (.node .nil (.node (.node (.node (.leaf (.mult 44519 4362 (.negSucc 0) 0)) .nil) .nil) .nil)) (.node (.node (.node (.node (.leaf (.mult 7069 4260 (.negSucc 0) 0)) .nil) .nil) .nil) .nil)) (.node .nil (.node .nil (.node (.node (.node (.leaf (.mult 44449 4351 (.ofNat 1) 0)) .nil) .nil) .nil)))) (.node (.node (.node .nil (.node (.node (.node (.leaf (.mult 21467 4457 (.ofNat 1) 0)) .nil) .nil) .nil)) (.node (.node (.node (.node (.leaf (.mult 5167 4336 (.ofNat 1) 0)) .nil) .nil) .nil) .nil)) .nil)))) (.node (.node (.node (.node (.node .nil (.node (.node (.node (.node (.leaf (.mult 3877 4228 (.ofNat 1) 0)) .nil) .nil) .nil) (.node (.node (.node (.leaf (.mult 33827 4238 (.ofNat 1) 0)) .nil) .nil) .nil))) (.node (.node .nil (.node (.node (.node (.leaf (.mult 44777 4437 (.ofNat 1) 0)) .nil) .nil) .nil)) (.node (.node (.node (.node (.leaf (.mult 44357 4326 (.ofNat 1) 0)) .nil) .nil) .nil) (.node (.node (.node (.leaf (.mult 44959 4469 (.ofNat 1) 0)) .nil) .nil) .nil)))) (.node (.node (.node .nil (.node (.node (.node (.leaf (.mult 34057 4404 (.ofNat 1) 0)) .nil) .nil) .nil)) (.node (.node (.node (.node (.leaf (.mult 27299 4291 (.ofNat 1) 0)) .nil) .nil) .nil) .nil)) .nil)) (.node (.node (.node (.node .nil (.node (.node (.node (.leaf (.mult 44483 4354 (.ofNat 1) 0)) .nil) .nil) .nil)) (.node (.node (.node (.node (.leaf (.mult 5657 4254 (.ofNat 1) 0)) .nil) .nil) .nil) (.node (.node (.node (.leaf (.trans [(6653951, .ofNat 1)] 0)) .nil) .nil) .nil))) .nil) (.node (.node (.node .nil (.node (.node (.node (.leaf (.mult 21419 4413 (.ofNat 1) 0)) .nil) .nil) .nil)) (.node (.node (.node (.node (.leaf (.mult 44381 4332 (.ofNat 1) 0)) .nil) .nil) .nil) (.node (.node (.node (.leaf (.trans [(7789513, .ofNat 1)] 0)) .nil) .nil) .nil))) (.node .nil (.node .nil (.node (.node (.node .nil (.leaf (.trans [(46451, .negSucc 0)] 0))) .nil) .nil)))))) (.node (.node (.node (.node .nil (.node (.node (.node (.node (.leaf (.mult 27211 4246 (.ofNat 1) 0)) .nil) .nil) .nil) (.node (.node (.node (.leaf (.trans [(20131099, .ofNat 1)] 0)) .nil) .nil) .nil))) (.node (.node .nil (.node (.node (.node (.leaf (.trans [(226604357, .ofNat 1)] 0)) .nil) .nil) .nil)) .nil)) (.node (.node (.node .nil (.node (.node (.node (.leaf (.mult 44579 4378 (.ofNat 1) 0)) .nil) .nil) .nil)) (.node (.node (.node (.node (.leaf (.mult 44263 4302 (.ofNat 1) 0)) .nil) .nil) .nil) .nil)) (.node .nil (.node .nil (.node (.node (.node (.leaf (.trans [(21517, .ofNat 1)] 0)) .nil) .nil) .nil))))) (.node (.node (.node (.node .nil (.node (.node (.node (.leaf (.mult 27509 4370 (.ofNat 1) 0)) .nil) .nil) .nil)) (.node (.node (.node (.node (.leaf (.mult 44203 4269 (.ofNat 1) 0)) .nil) .nil) .nil) (.node (.node (.node (.leaf (.mult 21341 4283 (.ofNat 1) 0)) .nil) .nil) .nil))) .nil) (.node (.node (.node .nil (.node (.node (.node (.leaf (.mult 34129 4421 (.ofNat 1) 0)) .nil) .nil) .nil)) (.node (.node (.node (.node (.leaf (.mult 11471 4341 (.ofNat 1) 0)) .nil) .nil) .nil) .nil)) .nil))))

def jac352 : JTree := .node (.node (.node (.node (.node .nil (.node (.node .nil (.node (.node (.node (.leaf (.mult 44729 4428 (.ofNat 1) 0)) .nil) .nil) .nil)) (.node (.node (.node (.node (.leaf (.mult 11467 4335 (.ofNat 1) 0)) .nil) .nil) .nil) .nil))) (.node (.node (.node .nil (.node (.node (.node (.leaf (.mult 44549 4376 (.ofNat 1) 0)) .nil) .nil) .nil)) (.node (.node (.node (.node (.leaf (.mult 21347 4289 (.ofNat 1) 0)) .nil) .nil) .nil) .nil)) (.node .nil (.node .nil (.node (.node (.node (.leaf (.mult 44953 4467 (.ofNat 1) 0)) .nil) .nil) .nil))))) (.node (.node (.node .nil (.node (.node (.node (.node (.leaf (.trans [(5168809, .ofNat 1)] 0)) .nil) .nil) .nil) (.node (.node (.node (.leaf (.trans [(10824431, .ofNat 1)] 0)) .nil) .nil) .nil))) .nil) (.node (.node (.node .nil (.node (.node (.node (.leaf (.mult 34019 4385 (.ofNat 1) 0)) .nil) .nil) .nil)) (.node (.node (.node (.node (.leaf (.trans [(36697957, .ofNat 1)] 0)) .nil) .nil) .nil) .nil)) (.node .nil (.node .nil (.node (.node (.node .nil (.leaf (.trans [(443, .ofNat 1)] 0))) .nil) .nil)))))) (.node (.node (.node (.node .nil (.node (.node (.node (.node (.leaf (.mult 16573 4239 (.ofNat 1) 0)) .nil) .nil) .nil) .nil)) (.node (.node .nil (.node (.node (.node (.leaf (.mult 34231 4443 (.ofNat 1) 0)) .nil) .nil) .nil)) .nil)) (.node (.node (.node .nil (.node (.node (.node (.leaf (.mult 44647 4408 (.ofNat 1) 0)) .nil) .nil) .nil)) (.node .nil (.node (.node (.node (.leaf (.mult 12541 4290 (.ofNat 1) 0)) .nil) .nil) .nil))) .nil)) (.node (.node (.node (.node .nil (.node (.node (.node (.leaf (.mult 44533 4364 (.negSucc 0) 0)) .nil) .nil) .nil)) (.node (.node (.node (.node (.leaf (.mult 7919 4261 (.ofNat 1) 0)) .nil) .nil) .nil) .nil)) .nil) (.node (.node (.node .nil (.node (.node (.node (.leaf (.mult 44867 4452 (.ofNat 1) 0)) .nil) .nil) .nil)) (.node (.node (.node (.node (.leaf (.trans [(3956137, .ofNat 1)] 0)) .nil) .nil) .nil) .nil)) .nil)))) (.node (.node (.node (.node (.node .nil (.node (.node (.node (.node (.leaf (.mult 4649 671 (.ofNat 1) 0)) .nil) .nil) .nil) (.node (.node (.node (.leaf (.mult 27197 4243 (.ofNat 1) 0)) .nil) .nil) .nil))) (.node (.node .nil (.node (.node (.node (.leaf (.mult 44771 4434 (.ofNat 1) 0)) .nil) .nil) .nil)) (.node (.node (.node (.node (.leaf (.mult 44351 4325 (.ofNat 1) 0)) .nil) .nil) .nil) .nil))) (.node (.node (.node .nil (.node (.node (.node (.leaf (.mult 44651 4409 (.ofNat 1) 0)) .nil) .nil) .nil)) (.node (.node (.node (.node (.leaf (.mult 27329 4292 (.ofNat 1) 0)) .nil) .nil) .nil) (.node (.node (.node (.leaf (.trans [(11161361, .ofNat 1)] 0)) .nil) .nil) .nil))) .nil)) (.node (.node (.node (.node .nil (.node (.node (.node (.leaf (.mult 27457 4352 (.ofNat 1) 0)) .nil) .nil) .nil)) (.node (.node (.node (.node (.leaf (.mult 44201 4258 (.ofNat 1) 0)) .nil) .nil) .nil) .nil)) (.node .nil (.node .nil (.node (.node (.node (.leaf (.mult 27437 4349 (.ofNat 1) 0)) .nil) .nil) .nil)))) (.node (.node (.node .nil (.node (.node (.node (.leaf (.mult 27697 4411 (.ofNat 1) 0)) .nil) .nil) .nil)) (.node (.node (.node (.node (.leaf (.trans [(2996689, .ofNat 1)] 0)) .nil) .nil) .nil) .nil)) .nil))) (.node (.node (.node (.node .nil (.node (.node (.node (.node (.leaf (.mult 4649 671 (.ofNat 1) 0)) .nil) .nil) .nil) .nil)) (.node (.node .nil (.node (.node (.node (.leaf (.mult 21491 4461 (.ofNat 1) 0)) .nil) .nil) .nil)) .nil)) (.node (.node (.node .nil (.node (.node (.node (.leaf (.mult 44633 4400 (.ofNat 1) 0)) .nil) .nil) .nil)) (.node (.node (.node (.node (.leaf (.mult 44269 4307 (.ofNat 1) 0)) .nil) .nil) .nil) (.node (.node (.node (.leaf (.trans [(14053609, .ofNat 1)] 0)) .nil) .nil) .nil))) (.node .nil (.node .nil (.node (.node (.node (.leaf (.trans [(21503, .ofNat 1)] 0)) .nil) .nil) .nil))))) (.node (.node (.node (.node .nil (.node (.node (.node (.leaf (.mult 33941 4368 (.ofNat 1) 0)) .nil) .nil) .nil)) (.node (.node (.node (.node (.leaf (.mult 9403 4277 (.ofNat 1) 0)) .nil) .nil) .nil) (.node (.node (.node (.leaf (.trans [(14640919, .ofNat 1)] 0)) .nil) .nil) .nil))) .nil) (.node (.node (.node .nil (.node (.node (.node (.leaf (.mult 34127 4419 (.ofNat 1) 0)) .nil) .nil) .nil)) (.node (.node (.node (.node (.leaf (.mult 7933 4343 (.ofNat 1) 0)) .nil) .nil) .nil) .nil)) (.node (.node .nil (.node (.node (.node (.leaf (.trans [(36055321, .ofNat 1)] 0)) .nil) .nil) .nil)) .nil)))))

def jac353 : JTree := .node (.node (.node (.node (.node (.node (.node (.node .nil (.node (.node (.leaf (.mult 44963 4471 (.ofNat 1) 0)) .nil) .nil)) .nil) .nil) (.node (.node .nil (.node (.node (.node (.leaf (.mult 34159 4431 (.ofNat 1) 0)) .nil) .nil) .nil)) (.node (.node (.node (.node (.leaf (.mult 27397 4318 (.ofNat 1) 0)) .nil) .nil) .nil) .nil))) (.node (.node (.node .nil (.node (.node (.node (.leaf (.mult 5839 4387 (.ofNat 1) 0)) .nil) .nil) .nil)) (.node (.node (.node (.node (.leaf (.mult 27271 4284 (.ofNat 1) 0)) .nil) .nil) .nil) .nil)) (.node .nil (.node .nil (.node (.node (.node (.leaf (.mult 21503 4468 (.ofNat 1) 0)) .nil) .nil) .nil))))) (.node (.node (.node .nil (.node (.node (.node (.node (.leaf (.trans [(653, .ofNat 1), (222829, .ofNat 1), (238411, .ofNat 1)] 0)) .nil) .nil) .nil) .nil)) .nil) (.node (.node (.node .nil (.node (.node (.node (.leaf (.mult 27551 4390 (.ofNat 1) 0)) .nil) .nil) .nil)) (.node (.node (.node (.node (.leaf (.mult 11939 4316 (.ofNat 1) 0)) .nil) .nil) .nil) .nil)) .nil))) (.node (.node (.node (.node .nil (.node (.node (.node (.node (.leaf (.mult 9883 4235 (.ofNat 1) 0)) .nil) .nil) .nil) .nil)) (.node (.node .nil (.node (.node (.node (.leaf (.mult 44819 4447 (.ofNat 1) 0)) .nil) .nil) .nil)) .nil)) (.node (.node (.node .nil (.node (.node (.node (.leaf (.mult 27611 4394 (.ofNat 1) 0)) .nil) .nil) .nil)) (.node (.node (.node (.node (.leaf (.mult 9413 4299 (.ofNat 1) 0)) .nil) .nil) .nil) .nil)) .nil)) (.node (.node (.node (.node .nil (.node (.node (.node (.leaf (.mult 44501 4360 (.negSucc 0) 0)) .nil) .nil) .nil)) (.node (.node (.node (.node (.leaf (.mult 7919 4261 (.negSucc 0) 0)) .nil) .nil) .nil) .nil)) .nil) (.node (.node (.node .nil (.node (.node (.node (.leaf (.mult 44683 4415 (.ofNat 1) 0)) .nil) .nil) .nil)) (.node (.node (.node (.node (.leaf (.mult 6353 4334 (.ofNat 1) 0)) .nil) .nil) .nil) .nil)) (.node (.node .nil (.node (.node (.node (.leaf (.mult 33811 4237 (.ofNat 1) 0)) .nil) .nil) .nil)) .nil))))) (.node (.node (.node (.node (.node .nil (.node (.node (.node (.node (.leaf (.mult 14533 4230 (.ofNat 1) 0)) .nil) .nil) .nil) (.node (.node (.node (.leaf (.trans [(7526731, .ofNat 1)] 0)) .nil) .nil) .nil))) (.node (.node .nil (.node (.node (.node (.leaf (.mult 44789 4440 (.ofNat 1) 0)) .nil) .nil) .nil)) (.node (.node (.node (.node (.leaf (.trans [(11237101, .ofNat 1)] 0)) .nil) .nil) .nil) .nil))) (.node (.node (.node .nil (.node (.node (.node (.leaf (.mult 27653 4402 (.ofNat 1) 0)) .nil) .nil) .nil)) (.node (.node (.node (.node (.leaf (.trans [(1721, .ofNat 1), (470023, .ofNat 1), (535901, .ofNat 1)] 0)) .nil) .nil) .nil) .nil)) .nil)) (.node (.node (.node (.node .nil (.node (.node (.node (.leaf (.mult 44491 4356 (.ofNat 1) 0)) .nil) .nil) .nil)) (.node (.node (.node (.node (.leaf (.mult 21221 4256 (.ofNat 1) 0)) .nil) .nil) .nil) .nil)) .nil) (.node (.node (.node .nil (.node (.node (.node (.leaf (.mult 44851 4451 (.ofNat 1) 0)) .nil) .nil) .nil)) (.node (.node (.node (.node (.leaf (.trans [(14762687, .ofNat 1)] 0)) .nil) .nil) .nil) (.node (.node (.node (.leaf (.mult 12547 4312 (.ofNat 1) 0)) .nil) .nil) .nil))) (.node .nil (.node .nil (.node (.node (.node .nil (.leaf (.trans [(47309, .negSucc 0)] 0))) .nil) .nil)))))) (.node (.node (.node (.node .nil (.node (.node (.node (.node (.leaf (.trans [(4733957, .ofNat 1)] 0)) .nil) .nil) .nil) (.node (.node (.node (.leaf (.mult 21187 4244 (.ofNat 1) 0)) .nil) .nil) .nil))) .nil) (.node (.node (.node .nil (.node (.node (.node (.leaf (.mult 44587 4383 (.ofNat 1) 0)) .nil) .nil) .nil)) (.node (.node (.node (.node (.leaf (.mult 44249 4300 (.ofNat 1) 0)) .nil) .nil) .nil) .nil)) (.node .nil (.node .nil (.node (.node (.node .nil (.leaf (.trans [(1231, .ofNat 1)] 0))) .nil) .nil))))) (.node (.node (.node (.node .nil (.node (.node (.node (.leaf (.mult 33961 4372 (.ofNat 1) 0)) .nil) .nil) .nil)) (.node (.node (.node (.node (.leaf (.mult 21283 4271 (.ofNat 1) 0)) .nil) .nil) .nil) (.node (.node (.node (.leaf (.trans [(9188489, .ofNat 1)] 0)) .nil) .nil) .nil))) .nil) (.node (.node (.node .nil (.node (.node (.node (.leaf (.mult 34141 4422 (.ofNat 1) 0)) .nil) .nil) .nil)) (.node (.node (.node (.node (.leaf (.trans [(3450901, .ofNat 1), (4391201, .ofNat 1)] 0)) .nil) .nil) .nil) (.node (.node (.node (.leaf (.mult 44939 4466 (.ofNat 1) 0)) .nil) .nil) .nil))) .nil))))

def jac354 : JTree := .node (.node (.node (.node (.node (.node .nil (.node .nil (.node (.node (.node (.leaf (.trans [(17130731, .ofNat 1)] 0)) .nil) .nil) .nil))) (.node (.node .nil (.node (.node (.node (.leaf (.mult 34147 4426 (.ofNat 1) 0)) .nil) .nil) .nil)) (.node (.node (.node (.node (.leaf (.mult 9421 4340 (.ofNat 1) 0)) .nil) .nil) .nil) .nil))) (.node (.node (.node .nil (.node (.node (.node (.leaf (.mult 27529 4375 (.ofNat 1) 0)) .nil) .nil) .nil)) (.node (.node (.node (.node (.leaf (.mult 21319 4281 (.ofNat 1) 0)) .nil) .nil) .nil) .nil)) .nil)) (.node (.node (.node .nil (.node (.node (.node (.node (.leaf (.mult 33857 4251 (.ofNat 1) 0)) .nil) .nil) .nil) (.node (.node (.node (.leaf (.mult 33871 4273 (.ofNat 1) 0)) .nil) .nil) .nil))) .nil) (.node (.node (.node .nil (.node (.node (.node (.leaf (.trans [(478239581, .ofNat 1)] 0)) .nil) .nil) .nil)) (.node (.node (.node (.node (.leaf (.trans [(6367, .ofNat 1)] 0)) .nil) .nil) .nil) .nil)) (.node .nil (.node .nil (.node (.node (.node .nil (.leaf (.trans [(443, .ofNat 1)] 0))) .nil) .nil)))))) (.node (.node (.node (.node .nil (.node (.node (.node (.node (.leaf (.mult 12527 4233 (.ofNat 1) 0)) .nil) .nil) .nil) .nil)) (.node (.node .nil (.node (.node (.node (.leaf (.mult 44797 4442 (.ofNat 1) 0)) .nil) .nil) .nil)) (.node (.node (.node (.node (.leaf (.mult 14549 4329 (.ofNat 1) 0)) .nil) .nil) .nil) (.node (.node (.node (.leaf (.mult 27427 4346 (.ofNat 1) 0)) .nil) .nil) .nil)))) (.node (.node (.node .nil (.node (.node (.node (.leaf (.mult 27689 4407 (.ofNat 1) 0)) .nil) .nil) .nil)) (.node .nil (.node (.node (.node (.leaf (.mult 21323 4282 (.ofNat 1) 0)) .nil) .nil) .nil))) .nil)) (.node (.node (.node (.node .nil (.node (.node (.node (.leaf (.mult 27481 4359 (.ofNat 1) 0)) .nil) .nil) .nil)) (.node (.node (.node (.node (.leaf (.trans [(30524569, .negSucc 0)] 0)) .nil) .nil) .nil) .nil)) .nil) (.node (.node (.node .nil (.node (.node (.node (.leaf (.mult 44879 4453 (.ofNat 1) 0)) .nil) .nil) .nil)) (.node (.node (.node (.node (.leaf (.mult 14551 4330 (.ofNat 1) 0)) .nil) .nil) .nil) .nil)) .nil)))) (.node (.node (.node (.node (.node (.node (.node .nil (.node (.node (.leaf (.mult 47309 5005 (.ofNat 1) 0)) .nil) .nil)) .nil) (.node (.node (.node (.node (.leaf (.trans [(709, .ofNat 1), (265357, .negSucc 0)] 0)) .nil) .nil) .nil) (.node (.node (.node (.leaf (.trans [(21478511, .ofNat 1)] 0)) .nil) .nil) .nil))) (.node (.node .nil (.node (.node (.node (.leaf (.mult 34183 4435 (.ofNat 1) 0)) .nil) .nil) .nil)) (.node (.node (.node (.node (.leaf (.mult 44281 4321 (.ofNat 1) 0)) .nil) .nil) .nil) .nil))) (.node (.node (.node .nil (.node (.node (.node (.leaf (.trans [(1718167489, .ofNat 1)] 0)) .nil) .nil) .nil)) (.node (.node (.node (.node (.leaf (.mult 27361 4294 (.ofNat 1) 0)) .nil) .nil) .nil) .nil)) .nil)) (.node (.node (.node (.node .nil (.node (.node (.node (.leaf (.mult 21433 4414 (.ofNat 1) 0)) .nil) .nil) .nil)) (.node (.node (.node (.node (.leaf (.mult 44189 4257 (.ofNat 1) 0)) .nil) .nil) .nil) .nil)) .nil) (.node (.node (.node .nil (.node (.node (.node (.leaf (.mult 27691 4410 (.ofNat 1) 0)) .nil) .nil) .nil)) (.node (.node (.node (.node (.leaf (.mult 27367 4317 (.ofNat 1) 0)) .nil) .nil) .nil) .nil)) (.node .nil (.node .nil (.node (.node (.node .nil (.leaf (.trans [(1459, .ofNat 1)] 0))) .nil) .nil)))))) (.node (.node (.node (.node .nil (.node (.node (.node (.node (.leaf (.mult 16987 679 (.ofNat 1) 0)) .nil) .nil) .nil) .nil)) (.node (.node .nil (.node (.node (.node (.leaf (.mult 21487 4460 (.ofNat 1) 0)) .nil) .nil) .nil)) .nil)) (.node (.node (.node .nil (.node (.node (.node (.leaf (.mult 27631 4399 (.ofNat 1) 0)) .nil) .nil) .nil)) (.node (.node (.node (.node (.leaf (.mult 44267 4306 (.ofNat 1) 0)) .nil) .nil) .nil) .nil)) (.node .nil (.node .nil (.node (.node (.node (.leaf (.trans [(21493, .ofNat 1)] 0)) .nil) .nil) .nil))))) (.node (.node (.node (.node .nil (.node (.node (.node (.leaf (.mult 33937 4367 (.ofNat 1) 0)) .nil) .nil) .nil)) (.node (.node (.node (.node (.leaf (.mult 10369 4255 (.negSucc 0) 0)) .nil) .nil) .nil) .nil)) .nil) (.node (.node (.node .nil (.node (.node (.node (.leaf (.mult 44687 4418 (.ofNat 1) 0)) .nil) .nil) .nil)) (.node (.node (.node (.node (.leaf (.trans [(4127917, .ofNat 1)] 0)) .nil) .nil) .nil) (.node (.node (.node (.leaf (.mult 44417 4345 (.ofNat 1) 0)) .nil) .nil) .nil))) .nil))))

def jac355 : JTree := .node (.node (.node (.node (.node (.node .nil (.node .nil (.node (.node (.node (.leaf (.trans [(15116203, .ofNat 1)] 0)) .nil) .nil) .nil))) (.node (.node .nil (.node (.node (.node (.leaf (.mult 44741 4430 (.ofNat 1) 0)) .nil) .nil) .nil)) (.node (.node (.node (.node (.leaf (.trans [(20739179, .ofNat 1)] 0)) .nil) .nil) .nil) (.node (.node (.node (.leaf (.mult 44917 4463 (.ofNat 1) 0)) .nil) .nil) .nil)))) (.node (.node (.node .nil (.node (.node (.node (.leaf (.mult 3571 4381 (.ofNat 1) 0)) .nil) .nil) .nil)) (.node (.node (.node (.node (.leaf (.mult 27277 4285 (.ofNat 1) 0)) .nil) .nil) .nil) (.node (.node (.node (.leaf (.trans [(5404309, .ofNat 1)] 0)) .nil) .nil) .nil))) .nil)) (.node (.node (.node .nil (.node (.node (.node (.node (.leaf (.mult 6653 687 (.ofNat 1) 0)) .nil) .nil) .nil) .nil)) (.node .nil (.node .nil (.node (.node (.node (.leaf (.mult 33931 4348 (.ofNat 1) 0)) .nil) .nil) .nil)))) (.node (.node (.node .nil (.node (.node (.node (.leaf (.mult 44617 4389 (.ofNat 1) 0)) .nil) .nil) .nil)) (.node (.node (.node (.node (.leaf (.trans [(35257, .ofNat 1)] 0)) .nil) .nil) .nil) .nil)) (.node .nil (.node .nil (.node (.node (.node .nil (.leaf (.trans [(419, .ofNat 1)] 0))) .nil) .nil)))))) (.node (.node (.node (.node .nil (.node (.node (.node (.node (.leaf (.mult 9397 4241 (.ofNat 1) 0)) .nil) .nil) .nil) .nil)) (.node (.node .nil (.node (.node (.node (.leaf (.mult 34259 4446 (.ofNat 1) 0)) .nil) .nil) .nil)) (.node .nil (.node (.node (.node (.leaf (.mult 27449 4350 (.ofNat 1) 0)) .nil) .nil) .nil)))) (.node (.node (.node .nil (.node (.node (.node (.leaf (.mult 27583 4393 (.ofNat 1) 0)) .nil) .nil) .nil)) (.node (.node (.node (.node (.leaf (.mult 44221 4298 (.ofNat 1) 0)) .nil) .nil) .nil) (.node (.node (.node (.leaf (.trans [(10257073, .ofNat 1)] 0)) .nil) .nil) .nil))) .nil)) (.node (.node (.node (.node .nil (.node (.node (.node (.leaf (.mult 44531 4363 (.ofNat 1) 0)) .nil) .nil) .nil)) (.node (.node (.node (.node (.leaf (.mult 9887 4264 (.ofNat 1) 0)) .nil) .nil) .nil) (.node (.node (.node (.leaf (.trans [(6993143, .ofNat 1)] 0)) .nil) .nil) .nil))) .nil) (.node (.node (.node .nil (.node (.node (.node (.leaf (.trans [(125249, .ofNat 1)] 0)) .nil) .nil) .nil)) (.node (.node (.node (.node (.leaf (.mult 4561 4337 (.ofNat 1) 0)) .nil) .nil) .nil) .nil)) (.node (.node .nil (.node (.node (.node (.leaf (.mult 33829 4242 (.ofNat 1) 0)) .nil) .nil) .nil)) .nil))))) (.node (.node (.node (.node (.node .nil (.node (.node (.node (.node (.leaf (.mult 5153 4229 (.ofNat 1) 0)) .nil) .nil) .nil) (.node (.node (.node (.leaf (.trans [(12553393, .ofNat 1)] 0)) .nil) .nil) .nil))) (.node (.node .nil (.node (.node (.node (.leaf (.mult 34211 4438 (.ofNat 1) 0)) .nil) .nil) .nil)) (.node (.node (.node (.node (.leaf (.trans [(13185059, .ofNat 1)] 0)) .nil) .nil) .nil) .nil))) (.node (.node (.node .nil (.node (.node (.node (.leaf (.mult 27647 4401 (.ofNat 1) 0)) .nil) .nil) .nil)) (.node (.node (.node (.node (.leaf (.mult 21377 4295 (.ofNat 1) 0)) .nil) .nil) .nil) .nil)) .nil)) (.node (.node (.node (.node .nil (.node (.node (.node (.leaf (.mult 27479 4355 (.ofNat 1) 0)) .nil) .nil) .nil)) (.node (.node (.node (.node (.leaf (.mult 10369 4255 (.ofNat 1) 0)) .nil) .nil) .nil) .nil)) .nil) (.node (.node (.node .nil (.node (.node (.node (.leaf (.mult 44843 4450 (.ofNat 1) 0)) .nil) .nil) .nil)) (.node (.node (.node (.node (.leaf (.trans [(12902081, .ofNat 1)] 0)) .nil) .nil) .nil) (.node (.node (.node (.leaf (.mult 21391 4311 (.ofNat 1) 0)) .nil) .nil) .nil))) (.node .nil (.node .nil (.node (.node (.node .nil (.leaf (.trans [(46831, .ofNat 1)] 0))) .nil) .nil)))))) (.node (.node (.node (.node .nil (.node (.node (.node (.node (.leaf (.mult 27239 4247 (.ofNat 1) 0)) .nil) .nil) .nil) (.node (.node (.node (.leaf (.mult 27253 4253 (.ofNat 1) 0)) .nil) .nil) .nil))) (.node (.node .nil (.node (.node (.node (.leaf (.mult 27701 4459 (.ofNat 1) 0)) .nil) .nil) .nil)) (.node .nil (.node (.node (.node (.leaf (.mult 27431 4347 (.ofNat 1) 0)) .nil) .nil) .nil)))) (.node (.node (.node .nil (.node (.node (.node (.leaf (.trans [(1333733363, .negSucc 0)] 0)) .nil) .nil) .nil)) (.node (.node (.node (.node (.leaf (.mult 44257 4301 (.ofNat 1) 0)) .nil) .nil) .nil) .nil)) (.node .nil (.node .nil (.node (.node (.node .nil (.leaf (.trans [(1231, .ofNat 1)] 0))) .nil) .nil))))) (.node (.node (.node (.node .nil (.node (.node (.node (.leaf (.mult 44543 4371 (.ofNat 1) 0)) .nil) .nil) .nil)) (.node (.node (.node (.node (.leaf (.mult 21277 4270 (.ofNat 1) 0)) .nil) .nil) .nil) (.node (.node (.node (.leaf (.mult 21313 4274 (.ofNat 1) 0)) .nil) .nil) .nil))) .nil) (.node (.node (.node .nil (.node (.node (.node (.leaf (.mult 44701 4423 (.ofNat 1) 0)) .nil) .nil) .nil)) (.node (.node (.node (.node (.leaf (.mult 44383 4338 (.ofNat 1) 0)) .nil) .nil) .nil) .nil)) (.node (.node .nil (.node (.node (.node (.leaf (.trans [(15755567, .ofNat 1)] 0)) .nil) .nil) .nil)) .nil)))))

def jac356 : JTree := .node (.node (.node (.node (.node .nil (.node (.node .nil (.node (.node (.node (.leaf (.mult 34157 4427 (.ofNat 1) 0)) .nil) .nil) .nil)) (.node (.node (.node (.node (.leaf (.mult 44293 4323 (.ofNat 1) 0)) .nil) .nil) .nil) .nil))) (.node (.node (.node .nil (.node (.node (.node (.leaf (.mult 7451 4380 (.ofNat 1) 0)) .nil) .nil) .nil)) (.node (.node (.node (.node (.leaf (.mult 21317 4280 (.ofNat 1) 0)) .nil) .nil) .nil) .nil)) .nil)) (.node (.node (.node .nil (.node (.node (.node (.node (.leaf (.mult 27241 4252 (.ofNat 1) 0)) .nil) .nil) .nil) .nil)) .nil) (.node (.node (.node .nil (.node (.node (.node (.leaf (.mult 27539 4386 (.ofNat 1) 0)) .nil) .nil) .nil)) (.node (.node (.node (.node (.leaf (.mult 44279 4313 (.ofNat 1) 0)) .nil) .nil) .nil) .nil)) (.node .nil (.node .nil (.node (.node (.node .nil (.leaf (.trans [(1, .ofNat 1)] 0))) .nil) .nil)))))) (.node (.node (.node (.node .nil (.node (.node (.node (.node (.leaf (.mult 16603 4240 (.ofNat 1) 0)) .nil) .nil) .nil) (.node (.node (.node (.leaf (.trans [(15661627, .ofNat 1)] 0)) .nil) .nil) .nil))) (.node (.node .nil (.node (.node (.node (.leaf (.mult 34253 4444 (.ofNat 1) 0)) .nil) .nil) .nil)) .nil)) (.node (.node (.node .nil (.node (.node (.node (.leaf (.mult 34031 4395 (.ofNat 1) 0)) .nil) .nil) .nil)) (.node .nil (.node (.node (.node (.leaf (.mult 33911 4310 (.ofNat 1) 0)) .nil) .nil) .nil))) .nil)) (.node (.node (.node (.node .nil (.node (.node (.node (.leaf (.mult 44537 4365 (.ofNat 1) 0)) .nil) .nil) .nil)) (.node (.node (.node (.node (.leaf (.mult 21247 4262 (.ofNat 1) 0)) .nil) .nil) .nil) .nil)) .nil) (.node (.node (.node .nil (.node (.node (.node (.leaf (.mult 44893 4455 (.ofNat 1) 0)) .nil) .nil) .nil)) (.node (.node (.node (.node (.leaf (.trans [(4817503, .ofNat 1)] 0)) .nil) .nil) .nil) .nil)) .nil)))) (.node (.node (.node (.node (.node .nil (.node (.node (.node (.node (.leaf (.trans [(691, .ofNat 1), (222829, .ofNat 1), (37124657, .ofNat 1), (40811857, .negSucc 0)] 0)) .nil) .nil) .nil) (.node (.node (.node (.leaf (.mult 21191 4245 (.ofNat 1) 0)) .nil) .nil) .nil))) (.node (.node .nil (.node (.node (.node (.leaf (.mult 44773 4436 (.ofNat 1) 0)) .nil) .nil) .nil)) (.node (.node (.node (.node (.leaf (.mult 44371 4328 (.ofNat 1) 0)) .nil) .nil) .nil) .nil))) (.node (.node (.node .nil (.node (.node (.node (.leaf (.mult 34039 4403 (.ofNat 1) 0)) .nil) .nil) .nil)) (.node (.node (.node (.node (.leaf (.mult 27337 4293 (.ofNat 1) 0)) .nil) .nil) .nil) .nil)) .nil)) (.node (.node (.node (.node .nil (.node (.node (.node (.leaf (.mult 44453 4353 (.ofNat 1) 0)) .nil) .nil) .nil)) (.node (.node (.node (.node (.leaf (.mult 21227 4259 (.ofNat 1) 0)) .nil) .nil) .nil) .nil)) .nil) (.node (.node (.node .nil (.node (.node (.node (.leaf (.mult 44657 4412 (.ofNat 1) 0)) .nil) .nil) .nil)) (.node (.node (.node (.node (.leaf (.mult 27407 4319 (.ofNat 1) 0)) .nil) .nil) .nil) .nil)) (.node .nil (.node .nil (.node (.node (.node .nil (.leaf (.trans [(44963, .ofNat 1)] 0))) .nil) .nil)))))) (.node (.node (.node (.node .nil (.node (.node (.node (.node (.leaf (.mult 16993 680 (.ofNat 1) 0)) .nil) .nil) .nil) .nil)) (.node (.node .nil (.node (.node (.node (.leaf (.mult 21481 4458 (.ofNat 1) 0)) .nil) .nil) .nil)) .nil)) (.node (.node (.node .nil (.node (.node (.node (.leaf (.mult 44563 4377 (.ofNat 1) 0)) .nil) .nil) .nil)) (.node (.node (.node (.node (.leaf (.mult 14537 4309 (.ofNat 1) 0)) .nil) .nil) .nil) .nil)) (.node .nil (.node .nil (.node (.node (.node (.leaf (.trans [(21499, .ofNat 1)] 0)) .nil) .nil) .nil))))) (.node (.node (.node (.node .nil (.node (.node (.node (.leaf (.mult 27487 4369 (.ofNat 1) 0)) .nil) .nil) .nil)) (.node (.node (.node (.node (.leaf (.mult 33863 4268 (.ofNat 1) 0)) .nil) .nil) .nil) (.node (.node (.node (.leaf (.mult 27259 4279 (.ofNat 1) 0)) .nil) .nil) .nil))) .nil) (.node (.node (.node .nil (.node (.node (.node (.leaf (.mult 44699 4420 (.ofNat 1) 0)) .nil) .nil) .nil)) (.node (.node (.node (.node (.leaf (.mult 9431 4344 (.ofNat 1) 0)) .nil) .nil) .nil) .nil)) .nil))))

def jac357 : JTree := .node (.node (.node (.node (.node (.node (.node (.node .nil (.node (.node (.leaf (.mult 46451 4913 (.ofNat 1) 0)) .nil) .nil)) .nil) .nil) (.node (.node .nil (.node (.node (.node (.leaf (.mult 44753 4432 (.ofNat 1) 0)) .nil) .nil) .nil)) (.node (.node (.node (.node (.leaf (.mult 33923 4324 (.ofNat 1) 0)) .nil) .nil) .nil) .nil))) (.node (.node (.node .nil (.node (.node (.node (.leaf (.trans [(1862331533, .ofNat 1)] 0)) .nil) .nil) .nil)) (.node (.node (.node (.node (.leaf (.mult 27281 4286 (.ofNat 1) 0)) .nil) .nil) .nil) .nil)) .nil)) (.node (.node (.node .nil (.node (.node (.node (.node (.leaf (.trans [(31897213, .ofNat 1)] 0)) .nil) .nil) .nil) (.node (.node (.node (.leaf (.trans [(13040953, .ofNat 1)] 0)) .nil) .nil) .nil))) .nil) (.node (.node (.node .nil (.node (.node (.node (.leaf (.mult 27581 4391 (.ofNat 1) 0)) .nil) .nil) .nil)) (.node (.node (.node (.node (.leaf (.mult 16631 4314 (.ofNat 1) 0)) .nil) .nil) .nil) .nil)) .nil))) (.node (.node (.node (.node .nil (.node (.node (.node (.node (.leaf (.mult 11933 4234 (.ofNat 1) 0)) .nil) .nil) .nil) .nil)) (.node (.node .nil (.node (.node (.node (.leaf (.mult 44839 4448 (.ofNat 1) 0)) .nil) .nil) .nil)) .nil)) (.node (.node (.node .nil (.node (.node (.node (.leaf (.mult 44623 4397 (.ofNat 1) 0)) .nil) .nil) .nil)) .nil) .nil)) (.node (.node (.node (.node .nil (.node (.node (.node (.leaf (.mult 44507 4361 (.ofNat 1) 0)) .nil) .nil) .nil)) (.node (.node (.node (.node (.leaf (.mult 16619 4276 (.ofNat 1) 0)) .nil) .nil) .nil) .nil)) .nil) (.node (.node (.node .nil (.node (.node (.node (.leaf (.mult 34061 4416 (.ofNat 1) 0)) .nil) .nil) .nil)) (.node (.node (.node (.node (.leaf (.mult 44389 4342 (.ofNat 1) 0)) .nil) .nil) .nil) .nil)) (.node (.node .nil (.node (.node (.node (.leaf (.trans [(8475127, .ofNat 1)] 0)) .nil) .nil) .nil)) .nil))))) (.node (.node (.node (.node (.node .nil (.node (.node (.node (.node (.leaf (.mult 9871 4231 (.ofNat 1) 0)) .nil) .nil) .nil) (.node (.node (.node (.leaf (.trans [(12557827, .ofNat 1)] 0)) .nil) .nil) .nil))) (.node (.node .nil (.node (.node (.node (.leaf (.mult 34213 4439 (.ofNat 1) 0)) .nil) .nil) .nil)) (.node (.node (.node (.node (.leaf (.mult 11447 4322 (.ofNat 1) 0)) .nil) .nil) .nil) .nil))) (.node (.node (.node .nil (.node (.node (.node (.leaf (.mult 44641 4405 (.ofNat 1) 0)) .nil) .nil) .nil)) (.node (.node (.node (.node (.leaf (.mult 8147 695 (.ofNat 1) 0)) .nil) .nil) .nil) (.node (.node (.node (.leaf (.trans [(9213487, .ofNat 1)] 0)) .nil) .nil) .nil))) .nil)) (.node (.node (.node (.node .nil (.node (.node (.node (.leaf (.mult 44497 4357 (.ofNat 1) 0)) .nil) .nil) .nil)) (.node (.node (.node (.node (.leaf (.trans [(31185751, .ofNat 1)] 0)) .nil) .nil) .nil) .nil)) .nil) (.node (.node (.node .nil (.node (.node (.node (.leaf (.mult 44909 4456 (.ofNat 1) 0)) .nil) .nil) .nil)) (.node (.node (.node (.node (.leaf (.mult 14557 4331 (.ofNat 1) 0)) .nil) .nil) .nil) (.node (.node (.node (.leaf (.mult 21383 4305 (.ofNat 1) 0)) .nil) .nil) .nil))) .nil))) (.node (.node (.node (.node .nil (.node (.node (.node (.node (.leaf (.mult 21193 4248 (.ofNat 1) 0)) .nil) .nil) .nil) (.node (.node (.node (.leaf (.mult 21211 4249 (.ofNat 1) 0)) .nil) .nil) .nil))) .nil) (.node (.node (.node .nil (.node (.node (.node (.leaf (.mult 33997 4384 (.ofNat 1) 0)) .nil) .nil) .nil)) (.node (.node (.node (.node (.leaf (.mult 9419 4303 (.ofNat 1) 0)) .nil) .nil) .nil) (.node (.node (.node (.leaf (.trans [(5939603, .ofNat 1)] 0)) .nil) .nil) .nil))) (.node .nil (.node .nil (.node (.node (.node .nil (.leaf (.trans [(1123, .negSucc 0)] 0))) .nil) .nil))))) (.node (.node (.node (.node .nil (.node (.node (.node (.leaf (.mult 33967 4373 (.ofNat 1) 0)) .nil) .nil) .nil)) (.node (.node (.node (.node (.leaf (.mult 21269 4267 (.ofNat 1) 0)) .nil) .nil) .nil) (.node (.node (.node (.leaf (.trans [(25338889, .ofNat 1)] 0)) .nil) .nil) .nil))) .nil) (.node (.node (.node .nil (.node (.node (.node (.leaf (.mult 16649 4424 (.ofNat 1) 0)) .nil) .nil) .nil)) (.node (.node (.node (.node (.leaf (.trans [(5575979, .ofNat 1)] 0)) .nil) .nil) .nil) .nil)) .nil))))

def jac358 : JTree := .node (.node (.node (.node (.node .nil (.node .nil (.node (.node (.node (.node (.leaf (.mult 7937 4550 (.ofNat 1) 0)) .nil) .nil) .nil) .nil))) (.node (.node (.node .nil (.node (.node (.node (.leaf (.mult 27901 4575 (.ofNat 1) 0)) .nil) .nil) .nil)) (.node (.node (.node (.node (.leaf (.trans [(197396737, .negSucc 0)] 0)) .nil) .nil) .nil) (.node (.node (.node (.leaf (.trans [(204130651, .negSucc 0)] 0)) .nil) .nil) .nil))) .nil)) (.node (.node (.node .nil (.node (.node (.node (.node (.leaf (.trans [(330989, .negSucc 0), (370807, .ofNat 1)] 0)) .nil) .nil) .nil) (.node (.node (.node (.leaf (.mult 34313 4492 (.negSucc 0) 0)) .nil) .nil) .nil))) .nil) (.node (.node .nil (.node (.node (.node (.node (.leaf (.trans [(325937, .negSucc 0)] 0)) .nil) .nil) .nil) .nil)) (.node .nil (.node .nil (.node (.node (.node .nil (.leaf (.trans [(1129, .ofNat 1)] 0))) .nil) .nil)))))) (.node (.node (.node (.node .nil (.node (.node (.node (.node (.leaf (.trans [(504484177, .ofNat 1)] 0)) .nil) .nil) .nil) .nil)) (.node .nil (.node (.node (.node (.node (.leaf (.mult 14591 4535 (.ofNat 1) 0)) .nil) .nil) .nil) .nil))) (.node (.node .nil (.node (.node (.node (.node (.leaf (.trans [(672121, .negSucc 0)] 0)) .nil) .nil) .nil) (.node (.node (.node (.leaf (.mult 21617 4511 (.ofNat 1) 0)) .nil) .nil) .nil))) (.node .nil (.node .nil (.node (.node (.node (.leaf (.mult 45281 4593 (.ofNat 1) 0)) .nil) .nil) .nil))))) (.node (.node (.node (.node .nil (.node (.node (.node (.leaf (.mult 7109 220 (.ofNat 1) 0)) .nil) .nil) .nil)) (.node .nil (.node (.node (.node (.leaf (.mult 27743 4491 (.negSucc 0) 0)) .nil) .nil) .nil))) .nil) (.node (.node (.node .nil (.node (.node (.node (.leaf (.trans [(1844601259, .ofNat 1), (2678643923, .negSucc 0)] 0)) .nil) .nil) .nil)) (.node (.node (.node (.node (.leaf (.mult 16661 4542 (.ofNat 1) 0)) .nil) .nil) .nil) .nil)) .nil)))) (.node (.node (.node (.node (.node (.node (.node .nil (.node (.node (.leaf (.mult 46853 4967 (.ofNat 1) 0)) .nil) .nil)) .nil) .nil) (.node .nil (.node (.node (.node (.node (.leaf (.mult 27823 4527 (.ofNat 1) 0)) .nil) .nil) .nil) .nil))) (.node (.node .nil (.node (.node (.node (.node (.leaf (.mult 12553 4503 (.ofNat 1) 0)) .nil) .nil) .nil) .nil)) .nil)) (.node .nil (.node (.node (.node .nil (.node (.node (.node (.leaf (.trans [(15271693, .negSucc 0)] 0)) .nil) .nil) .nil)) (.node .nil (.node (.node (.node (.leaf (.mult 21649 4513 (.negSucc 0) 0)) .nil) .nil) .nil))) (.node .nil (.node .nil (.node (.node (.node .nil (.leaf (.trans [(1471, .negSucc 0)] 0))) .nil) .nil)))))) (.node (.node (.node (.node .nil (.node (.node (.node (.node (.leaf (.trans [(197396737, .negSucc 0)] 0)) .nil) .nil) .nil) (.node (.node (.node (.leaf (.trans [(3490737233, .negSucc 0)] 0)) .nil) .nil) .nil))) .nil) (.node .nil (.node .nil (.node .nil (.node (.node (.node (.leaf (.mult 21799 4599 (.ofNat 1) 0)) .nil) .nil) .nil))))) (.node (.node (.node (.node .nil (.node (.node (.node (.leaf (.mult 21701 4567 (.ofNat 1) 0)) .nil) .nil) .nil)) .nil) (.node .nil (.node .nil (.node (.node (.node (.leaf (.mult 21767 4591 (.ofNat 1) 0)) .nil) .nil) .nil)))) (.node (.node .nil (.node (.node (.node (.node (.leaf (.mult 45139 4557 (.negSucc 0) 0)) .nil) .nil) .nil) .nil)) .nil))))

def jac359 : JTree := .node (.node (.node (.node (.node .nil (.node .nil (.node (.node (.node (.node (.leaf (.mult 11489 4545 (.ofNat 1) 0)) .nil) .nil) .nil) .nil))) (.node (.node (.node .nil (.node (.node (.node (.leaf (.mult 45233 4577 (.ofNat 1) 0)) .nil) .nil) .nil)) (.node (.node (.node (.node (.leaf (.mult 21611 4504 (.ofNat 1) 0)) .nil) .nil) .nil) .nil)) (.node .nil (.node .nil (.node (.node (.node (.leaf (.mult 45293 4596 (.ofNat 1) 0)) .nil) .nil) .nil))))) (.node (.node (.node .nil (.node (.node (.node (.node (.leaf (.trans [(42440837, .negSucc 0), (46656037, .ofNat 1)] 0)) .nil) .nil) .nil) (.node (.node (.node (.leaf (.trans [(704697629, .negSucc 0)] 0)) .nil) .nil) .nil))) .nil) (.node .nil (.node .nil (.node .nil (.node (.node (.node .nil (.leaf (.trans [(397, .negSucc 0)] 0))) .nil) .nil)))))) (.node (.node .nil (.node (.node (.node .nil (.node (.node (.node (.leaf (.trans [(15284821, .negSucc 0)] 0)) .nil) .nil) .nil)) (.node .nil (.node (.node (.node (.leaf (.mult 12569 4505 (.ofNat 1) 0)) .nil) .nil) .nil))) .nil)) (.node (.node (.node (.node .nil (.node (.node (.node (.leaf (.mult 3163 1329 (.ofNat 1) 0)) .nil) .nil) .nil)) .nil) .nil) (.node (.node (.node .nil (.node (.node (.node (.leaf (.trans [(1843016947, .ofNat 1), (2676343259, .negSucc 0)] 0)) .nil) .nil) .nil)) (.node (.node (.node (.node (.leaf (.trans [(907721047, .negSucc 0)] 0)) .nil) .nil) .nil) .nil)) .nil)))) (.node (.node (.node (.node (.node .nil (.node (.node (.node (.node (.leaf (.trans [(595103, .negSucc 0)] 0)) .nil) .nil) .nil) (.node (.node (.node (.leaf (.mult 27733 4477 (.ofNat 1) 0)) .nil) .nil) .nil))) (.node .nil (.node (.node (.node (.node (.leaf (.mult 45007 4533 (.ofNat 1) 0)) .nil) .nil) .nil) .nil))) (.node (.node .nil (.node (.node (.node (.node (.leaf (.mult 27791 4507 (.negSucc 0) 0)) .nil) .nil) .nil) (.node (.node (.node (.leaf (.mult 14561 4494 (.negSucc 0) 0)) .nil) .nil) .nil))) .nil)) (.node (.node (.node (.node .nil (.node (.node (.node (.leaf (.trans [(31588099, .negSucc 0)] 0)) .nil) .nil) .nil)) .nil) (.node .nil (.node .nil (.node (.node (.node (.leaf (.trans [(14837659, .negSucc 0), (14839697, .negSucc 0)] 0)) .nil) .nil) .nil)))) (.node (.node (.node .nil (.node (.node (.node (.leaf (.mult 27947 4581 (.ofNat 1) 0)) .nil) .nil) .nil)) (.node (.node (.node (.node (.leaf (.trans [(3000203, .negSucc 0)] 0)) .nil) .nil) .nil) .nil)) .nil))) (.node (.node (.node (.node .nil (.node (.node (.node (.node (.leaf (.trans [(4177, .ofNat 1), (595103, .negSucc 0)] 0)) .nil) .nil) .nil) .nil)) (.node (.node .nil (.node (.node (.node (.leaf (.mult 21757 4590 (.ofNat 1) 0)) .nil) .nil) .nil)) .nil)) (.node (.node (.node .nil (.node (.node (.node (.leaf (.trans [(15283727, .negSucc 0)] 0)) .nil) .nil) .nil)) (.node .nil (.node (.node (.node (.leaf (.mult 21647 4512 (.negSucc 0) 0)) .nil) .nil) .nil))) (.node .nil (.node .nil (.node (.node (.node (.leaf (.trans [(21787, .ofNat 1)] 0)) .nil) .nil) .nil))))) (.node (.node (.node (.node .nil (.node (.node (.node (.leaf (.mult 34367 4569 (.ofNat 1) 0)) .nil) .nil) .nil)) (.node (.node (.node (.node (.leaf (.trans [(380485991, .negSucc 0)] 0)) .nil) .nil) .nil) (.node (.node (.node (.leaf (.mult 21599 4497 (.negSucc 0) 0)) .nil) .nil) .nil))) .nil) (.node (.node .nil (.node (.node (.node (.node (.leaf (.mult 7949 4556 (.ofNat 1) 0)) .nil) .nil) .nil) .nil)) (.node (.node .nil (.node (.node (.node (.leaf (.mult 34261 4472 (.ofNat 1) 0)) .nil) .nil) .nil)) .nil)))))

def jac360 : JTree := .node (.node jac358 (.node (.node (.node (.node (.node .nil (.node .nil (.node (.node (.node (.node (.leaf (.trans [(4448048741, .negSucc 0)] 0)) .nil) .nil) .nil) .nil))) (.node (.node .nil (.node (.node (.node (.node (.leaf (.mult 27773 4502 (.ofNat 1) 0)) .nil) .nil) .nil) .nil)) .nil)) (.node (.node (.node .nil (.node (.node (.node (.node (.leaf (.trans [(616541, .negSucc 0)] 0)) .nil) .nil) .nil) .nil)) .nil) (.node (.node .nil (.node (.node (.node (.node (.leaf (.trans [(116321, .negSucc 0)] 0)) .nil) .nil) .nil) (.node (.node (.node (.leaf (.mult 21673 4516 (.negSucc 0) 0)) .nil) .nil) .nil))) .nil))) (.node (.node .nil (.node (.node .nil (.node .nil (.node (.node (.node (.leaf (.mult 34319 4514 (.negSucc 0) 0)) .nil) .nil) .nil))) (.node .nil (.node .nil (.node (.node (.node (.leaf (.mult 21773 4594 (.ofNat 1) 0)) .nil) .nil) .nil))))) (.node (.node (.node (.node .nil (.node (.node (.node (.leaf (.mult 10973 1331 (.negSucc 0) 0)) .nil) .nil) .nil)) .nil) (.node .nil (.node .nil (.node (.node (.node (.leaf (.mult 45179 4564 (.ofNat 1) 0)) .nil) .nil) .nil)))) (.node (.node (.node .nil (.node (.node (.node (.leaf (.mult 21737 4586 (.ofNat 1) 0)) .nil) .nil) .nil)) (.node (.node (.node (.node (.leaf (.mult 5171 4546 (.ofNat 1) 0)) .nil) .nil) .nil) .nil)) .nil)))) (.node (.node (.node (.node (.node .nil (.node .nil (.node (.node (.node (.leaf (.mult 34283 4475 (.ofNat 1) 0)) .nil) .nil) .nil))) (.node .nil (.node (.node (.node (.node (.leaf (.mult 45013 4534 (.negSucc 0) 0)) .nil) .nil) .nil) (.node (.node (.node (.leaf (.mult 45307 4598 (.ofNat 1) 0)) .nil) .nil) .nil)))) (.node (.node .nil (.node (.node (.node (.node (.leaf (.mult 27779 4506 (.negSucc 0) 0)) .nil) .nil) .nil) .nil)) .nil)) (.node (.node (.node (.node .nil (.node (.node (.node (.leaf (.mult 45181 4565 (.ofNat 1) 0)) .nil) .nil) .nil)) (.node .nil (.node (.node (.node (.leaf (.mult 21589 4496 (.negSucc 0) 0)) .nil) .nil) .nil))) .nil) (.node (.node (.node .nil (.node (.node (.node (.leaf (.mult 21713 4582 (.ofNat 1) 0)) .nil) .nil) .nil)) (.node (.node (.node (.node (.leaf (.mult 45077 4541 (.negSucc 0) 0)) .nil) .nil) .nil) (.node (.node (.node (.leaf (.mult 12583 4520 (.negSucc 0) 0)) .nil) .nil) .nil))) (.node .nil (.node .nil (.node (.node (.node .nil (.leaf (.trans [(46457, .negSucc 0)] 0))) .nil) .nil)))))) (.node (.node (.node (.node .nil (.node (.node (.node (.node (.leaf (.mult 7247 1326 (.ofNat 1) 0)) .nil) .nil) .nil) (.node (.node (.node (.leaf (.trans [(20497643, .ofNat 1)] 0)) .nil) .nil) .nil))) .nil) (.node .nil (.node .nil (.node .nil (.node (.node (.node (.leaf (.trans [(21799, .ofNat 1)] 0)) .nil) .nil) .nil))))) (.node (.node (.node (.node .nil (.node (.node (.node (.leaf (.mult 27893 4571 (.ofNat 1) 0)) .nil) .nil) .nil)) (.node .nil (.node (.node (.node (.leaf (.mult 21601 4498 (.ofNat 1) 0)) .nil) .nil) .nil))) .nil) (.node (.node .nil (.node (.node (.node (.node (.leaf (.mult 11491 4554 (.ofNat 1) 0)) .nil) .nil) .nil) .nil)) .nil)))))) (.node jac359 (.node (.node (.node (.node (.node (.node (.node (.node .nil (.node (.node (.leaf (.mult 45317 4600 (.ofNat 1) 0)) .nil) .nil)) .nil) .nil) (.node .nil (.node (.node (.node (.node (.leaf (.mult 27809 4525 (.ofNat 1) 0)) .nil) .nil) .nil) .nil))) (.node (.node .nil (.node (.node (.node (.node (.leaf (.mult 27751 4499 (.ofNat 1) 0)) .nil) .nil) .nil) .nil)) (.node .nil (.node .nil (.node (.node (.node (.leaf (.mult 21787 4597 (.ofNat 1) 0)) .nil) .nil) .nil))))) (.node (.node (.node .nil (.node (.node (.node (.node (.leaf (.trans [(199691, .negSucc 0)] 0)) .nil) .nil) .nil) .nil)) .nil) (.node (.node .nil (.node (.node (.node (.node (.leaf (.mult 11953 4523 (.negSucc 0) 0)) .nil) .nil) .nil) .nil)) (.node .nil (.node .nil (.node (.node (.node .nil (.leaf (.trans [(1, .ofNat 1)] 0))) .nil) .nil)))))) (.node (.node .nil (.node (.node .nil (.node (.node (.node (.node (.leaf (.trans [(1108888093, .negSucc 0)] 0)) .nil) .nil) .nil) .nil)) .nil)) (.node (.node (.node (.node .nil (.node (.node (.node (.leaf (.mult 13309 1327 (.ofNat 1) 0)) .nil) .nil) .nil)) .nil) .nil) (.node (.node .nil (.node (.node (.node (.node (.leaf (.mult 6359 4543 (.ofNat 1) 0)) .nil) .nil) .nil) .nil)) (.node (.node .nil (.node (.node (.node (.leaf (.mult 34273 4474 (.ofNat 1) 0)) .nil) .nil) .nil)) .nil))))) (.node (.node (.node (.node (.node .nil (.node .nil (.node (.node (.node (.leaf (.mult 34301 4483 (.ofNat 1) 0)) .nil) .nil) .nil))) (.node .nil (.node (.node (.node (.node (.leaf (.mult 44983 4529 (.negSucc 0) 0)) .nil) .nil) .nil) .nil))) (.node (.node .nil (.node (.node (.node (.node (.leaf (.trans [(421217, .negSucc 0)] 0)) .nil) .nil) .nil) .nil)) .nil)) (.node (.node (.node (.node .nil (.node (.node (.node (.leaf (.trans [(31322903, .ofNat 1)] 0)) .nil) .nil) .nil)) .nil) .nil) (.node (.node (.node .nil (.node (.node (.node (.leaf (.mult 45259 4585 (.ofNat 1) 0)) .nil) .nil) .nil)) (.node (.node (.node (.node (.leaf (.trans [(3387244097, .negSucc 0)] 0)) .nil) .nil) .nil) (.node (.node (.node (.leaf (.mult 12589 4521 (.ofNat 1) 0)) .nil) .nil) .nil))) (.node .nil (.node .nil (.node (.node (.node .nil (.leaf (.trans [(47317, .negSucc 0)] 0))) .nil) .nil)))))) (.node (.node (.node (.node .nil (.node (.node (.node (.node (.leaf (.trans [(46339369, .ofNat 1), (50941769, .negSucc 0)] 0)) .nil) .nil) .nil) (.node (.node (.node (.leaf (.mult 21521 4478 (.negSucc 0) 0)) .nil) .nil) .nil))) .nil) (.node .nil (.node .nil (.node .nil (.node (.node (.node .nil (.leaf (.trans [(1237, .negSucc 0)] 0))) .nil) .nil))))) (.node (.node (.node (.node .nil (.node (.node (.node (.leaf (.mult 34369 4573 (.negSucc 0) 0)) .nil) .nil) .nil)) (.node .nil (.node (.node (.node (.leaf (.trans [(218503639, .negSucc 0)] 0)) .nil) .nil) .nil))) .nil) (.node (.node .nil (.node (.node (.node (.node (.leaf (.mult 45127 4551 (.negSucc 0) 0)) .nil) .nil) .nil) (.node (.node (.node (.leaf (.mult 45289 4595 (.negSucc 0) 0)) .nil) .nil) .nil))) .nil))))))

def jac361 : JTree := .node (.node (.node (.node (.node (.node .nil (.node .nil (.node (.node (.node (.leaf (.trans [(3930583061, .negSucc 0)] 0)) .nil) .nil) .nil))) (.node .nil (.node (.node (.node (.node (.leaf (.mult 9437 4552 (.ofNat 1) 0)) .nil) .nil) .nil) .nil))) (.node (.node (.node .nil (.node (.node (.node (.leaf (.mult 27917 4576 (.ofNat 1) 0)) .nil) .nil) .nil)) (.node (.node (.node (.node (.leaf (.trans [(506969, .negSucc 0)] 0)) .nil) .nil) .nil) .nil)) .nil)) (.node (.node (.node .nil (.node (.node (.node (.node (.leaf (.trans [(181541, .negSucc 0), (354071, .negSucc 0)] 0)) .nil) .nil) .nil) (.node (.node (.node (.leaf (.mult 34303 4489 (.negSucc 0) 0)) .nil) .nil) .nil))) .nil) (.node .nil (.node .nil (.node .nil (.node (.node (.node .nil (.leaf (.trans [(397, .negSucc 0)] 0))) .nil) .nil)))))) (.node (.node (.node .nil (.node .nil (.node (.node (.node (.node (.leaf (.mult 14593 4538 (.ofNat 1) 0)) .nil) .nil) .nil) (.node (.node (.node (.leaf (.mult 27827 4560 (.ofNat 1) 0)) .nil) .nil) .nil)))) (.node (.node (.node .nil (.node (.node (.node (.leaf (.mult 27943 4580 (.ofNat 1) 0)) .nil) .nil) .nil)) (.node .nil (.node (.node (.node (.leaf (.mult 14563 4495 (.negSucc 0) 0)) .nil) .nil) .nil))) .nil)) (.node (.node (.node (.node .nil (.node (.node (.node (.leaf (.trans [(132683, .negSucc 0), (148009, .ofNat 1)] 0)) .nil) .nil) .nil)) .nil) (.node .nil (.node .nil (.node (.node (.node .nil (.leaf (.trans [(1, .ofNat 1)] 0))) .nil) .nil)))) (.node (.node (.node .nil (.node (.node (.node (.leaf (.trans [(1844469233, .ofNat 1), (2678452201, .negSucc 0)] 0)) .nil) .nil) .nil)) (.node (.node (.node (.node (.leaf (.mult 14621 4539 (.ofNat 1) 0)) .nil) .nil) .nil) .nil)) .nil)))) (.node (.node (.node (.node (.node (.node (.node .nil (.node (.node (.leaf (.mult 47317 5006 (.ofNat 1) 0)) .nil) .nil)) .nil) (.node (.node (.node (.node (.leaf (.trans [(237803, .ofNat 1)] 0)) .nil) .nil) .nil) (.node (.node (.node (.leaf (.mult 21529 4480 (.negSucc 0) 0)) .nil) .nil) .nil))) (.node .nil (.node (.node (.node (.node (.leaf (.mult 44971 4528 (.ofNat 1) 0)) .nil) .nil) .nil) .nil))) (.node (.node .nil (.node (.node (.node (.node (.leaf (.mult 27799 4509 (.negSucc 0) 0)) .nil) .nil) .nil) .nil)) .nil)) (.node (.node (.node (.node .nil (.node (.node (.node (.leaf (.mult 21727 4583 (.ofNat 1) 0)) .nil) .nil) .nil)) .nil) .nil) (.node (.node .nil (.node (.node (.node (.node (.leaf (.mult 27803 4524 (.ofNat 1) 0)) .nil) .nil) .nil) .nil)) (.node .nil (.node .nil (.node (.node (.node .nil (.leaf (.trans [(1471, .negSucc 0)] 0))) .nil) .nil)))))) (.node (.node (.node (.node .nil (.node (.node (.node (.node (.leaf (.trans [(846007, .negSucc 0)] 0)) .nil) .nil) .nil) .nil)) (.node (.node .nil (.node (.node (.node (.leaf (.mult 21751 4589 (.ofNat 1) 0)) .nil) .nil) .nil)) .nil)) (.node (.node (.node .nil (.node (.node (.node (.leaf (.mult 27941 4579 (.ofNat 1) 0)) .nil) .nil) .nil)) .nil) (.node .nil (.node .nil (.node (.node (.node (.leaf (.trans [(21767, .ofNat 1)] 0)) .nil) .nil) .nil))))) (.node (.node (.node (.node .nil (.node (.node (.node (.leaf (.mult 34361 4568 (.negSucc 0) 0)) .nil) .nil) .nil)) .nil) .nil) (.node (.node .nil (.node (.node (.node (.node (.leaf (.mult 45131 4553 (.negSucc 0) 0)) .nil) .nil) .nil) (.node (.node (.node (.leaf (.mult 45161 4559 (.ofNat 1) 0)) .nil) .nil) .nil))) .nil))))

def jac362 : JTree := .node (.node (.node (.node (.node (.node .nil (.node .nil (.node (.node (.node (.leaf (.mult 34267 4473 (.negSucc 0) 0)) .nil) .nil) .nil))) (.node .nil (.node (.node (.node (.node (.leaf (.trans [(4758528149, .negSucc 0)] 0)) .nil) .nil) .nil) (.node (.node (.node (.leaf (.mult 45263 4592 (.ofNat 1) 0)) .nil) .nil) .nil)))) (.node (.node .nil (.node (.node (.node (.node (.leaf (.mult 27763 4500 (.ofNat 1) 0)) .nil) .nil) .nil) (.node (.node (.node (.leaf (.trans [(5410343, .ofNat 1)] 0)) .nil) .nil) .nil))) .nil)) (.node (.node (.node .nil (.node (.node (.node (.node (.leaf (.trans [(433127, .negSucc 0)] 0)) .nil) .nil) .nil) .nil)) (.node .nil (.node .nil (.node (.node (.node (.leaf (.mult 34351 4562 (.ofNat 1) 0)) .nil) .nil) .nil)))) .nil)) (.node (.node (.node (.node .nil (.node (.node (.node (.node (.leaf (.trans [(2156107, .negSucc 0)] 0)) .nil) .nil) .nil) .nil)) (.node .nil (.node .nil (.node (.node (.node (.leaf (.mult 27851 4563 (.ofNat 1) 0)) .nil) .nil) .nil)))) (.node (.node .nil (.node .nil (.node (.node (.node (.leaf (.trans [(1034133787, .negSucc 0)] 0)) .nil) .nil) .nil))) .nil)) (.node (.node (.node (.node .nil (.node (.node (.node (.leaf (.trans [(2754223, .negSucc 0)] 0)) .nil) .nil) .nil)) (.node (.node (.node (.node (.leaf (.trans [(319766429, .negSucc 0)] 0)) .nil) .nil) .nil) (.node (.node (.node (.leaf (.mult 21577 4488 (.negSucc 0) 0)) .nil) .nil) .nil))) .nil) (.node (.node .nil (.node (.node (.node (.node (.leaf (.mult 4567 4548 (.ofNat 1) 0)) .nil) .nil) .nil) .nil)) (.node (.node .nil (.node (.node (.node (.leaf (.mult 34297 4476 (.ofNat 1) 0)) .nil) .nil) .nil)) .nil))))) (.node (.node (.node (.node (.node .nil (.node .nil (.node (.node (.node (.leaf (.trans [(625199173, .negSucc 0)] 0)) .nil) .nil) .nil))) (.node .nil (.node (.node (.node (.node (.leaf (.mult 45061 4537 (.negSucc 0) 0)) .nil) .nil) .nil) .nil))) (.node (.node .nil (.node (.node (.node (.node (.leaf (.mult 21613 4510 (.ofNat 1) 0)) .nil) .nil) .nil) .nil)) .nil)) (.node (.node (.node (.node .nil (.node (.node (.node (.leaf (.trans [(30591629, .ofNat 1)] 0)) .nil) .nil) .nil)) .nil) .nil) (.node (.node (.node .nil (.node (.node (.node (.leaf (.mult 45247 4584 (.ofNat 1) 0)) .nil) .nil) .nil)) (.node (.node (.node (.node (.leaf (.trans [(2960334911, .negSucc 0)] 0)) .nil) .nil) .nil) (.node (.node (.node (.leaf (.mult 21683 4518 (.ofNat 1) 0)) .nil) .nil) .nil))) (.node .nil (.node .nil (.node (.node (.node .nil (.leaf (.trans [(46853, .ofNat 1)] 0))) .nil) .nil)))))) (.node (.node (.node (.node .nil (.node (.node (.node (.node (.leaf (.mult 7253 1328 (.ofNat 1) 0)) .nil) .nil) .nil) (.node (.node (.node (.leaf (.mult 27739 4486 (.ofNat 1) 0)) .nil) .nil) .nil))) (.node (.node .nil (.node (.node (.node (.leaf (.mult 27953 4588 (.negSucc 0) 0)) .nil) .nil) .nil)) (.node .nil (.node (.node (.node (.leaf (.mult 27847 4561 (.ofNat 1) 0)) .nil) .nil) .nil)))) (.node .nil (.node .nil (.node .nil (.node (.node (.node .nil (.leaf (.trans [(1237, .negSucc 0)] 0))) .nil) .nil))))) (.node (.node (.node (.node .nil (.node (.node (.node (.leaf (.mult 45197 4572 (.ofNat 1) 0)) .nil) .nil) .nil)) (.node .nil (.node (.node (.node (.leaf (.mult 21587 4490 (.ofNat 1) 0)) .nil) .nil) .nil))) .nil) (.node (.node .nil (.node (.node (.node (.node (.leaf (.mult 45121 4549 (.ofNat 1) 0)) .nil) .nil) .nil) .nil)) (.node (.node .nil (.node (.node (.node (.leaf (.mult 21523 4479 (.ofNat 1) 0)) .nil) .nil) .nil)) .nil)))))

def jac363 : JTree := .node (.node (.node (.node (.node (.node .nil (.node .nil (.node (.node (.node (.node (.leaf (.mult 44987 4531 (.ofNat 1) 0)) .nil) .nil) .nil) .nil))) (.node (.node .nil (.node (.node (.node (.node (.leaf (.trans [(473621, .negSucc 0)] 0)) .nil) .nil) .nil) .nil)) .nil)) (.node (.node (.node .nil (.node (.node (.node (.node (.leaf (.mult 27737 4485 (.ofNat 1) 0)) .nil) .nil) .nil) .nil)) .nil) (.node (.node .nil (.node (.node (.node (.node (.leaf (.trans [(3806039, .negSucc 0)] 0)) .nil) .nil) .nil) .nil)) .nil))) (.node (.node (.node (.node .nil (.node .nil (.node (.node (.node (.leaf (.trans [(15932101, .ofNat 1)] 0)) .nil) .nil) .nil))) .nil) (.node (.node .nil (.node .nil (.node (.node (.node (.leaf (.mult 34327 4517 (.negSucc 0) 0)) .nil) .nil) .nil))) .nil)) (.node (.node (.node (.node .nil (.node (.node (.node (.leaf (.trans [(793913, .ofNat 1)] 0)) .nil) .nil) .nil)) .nil) .nil) (.node (.node (.node .nil (.node (.node (.node (.leaf (.trans [(1844865311, .ofNat 1), (2679027367, .negSucc 0)] 0)) .nil) .nil) .nil)) (.node (.node (.node (.node (.leaf (.mult 45119 4547 (.negSucc 0) 0)) .nil) .nil) .nil) .nil)) .nil)))) (.node (.node (.node (.node (.node .nil (.node (.node (.node (.node (.leaf (.trans [(199691, .negSucc 0)] 0)) .nil) .nil) .nil) (.node (.node (.node (.leaf (.mult 21557 4481 (.ofNat 1) 0)) .nil) .nil) .nil))) (.node .nil (.node (.node (.node (.node (.leaf (.mult 45053 4536 (.ofNat 1) 0)) .nil) .nil) .nil) .nil))) (.node (.node .nil (.node (.node (.node (.node (.leaf (.mult 27793 4508 (.negSucc 0) 0)) .nil) .nil) .nil) .nil)) .nil)) (.node (.node (.node (.node .nil (.node (.node (.node (.leaf (.trans [(32343193, .negSucc 0)] 0)) .nil) .nil) .nil)) .nil) .nil) (.node (.node (.node .nil (.node (.node (.node (.leaf (.trans [(15287009, .ofNat 1)] 0)) .nil) .nil) .nil)) (.node (.node (.node (.node (.leaf (.mult 27817 4526 (.ofNat 1) 0)) .nil) .nil) .nil) .nil)) (.node .nil (.node .nil (.node (.node (.node .nil (.leaf (.trans [(45317, .ofNat 1)] 0))) .nil) .nil)))))) (.node (.node (.node (.node .nil (.node (.node (.node (.node (.leaf (.trans [(804719, .negSucc 0)] 0)) .nil) .nil) .nil) .nil)) (.node (.node .nil (.node (.node (.node (.leaf (.mult 21739 4587 (.ofNat 1) 0)) .nil) .nil) .nil)) .nil)) (.node (.node .nil (.node (.node (.node (.node (.leaf (.trans [(1109586019, .negSucc 0)] 0)) .nil) .nil) .nil) .nil)) (.node .nil (.node .nil (.node (.node (.node (.leaf (.trans [(21773, .ofNat 1)] 0)) .nil) .nil) .nil))))) (.node (.node (.node (.node .nil (.node (.node (.node (.leaf (.mult 27883 4570 (.ofNat 1) 0)) .nil) .nil) .nil)) (.node .nil (.node (.node (.node (.leaf (.mult 27749 4493 (.ofNat 1) 0)) .nil) .nil) .nil))) .nil) (.node (.node .nil (.node (.node (.node (.node (.leaf (.mult 9439 4558 (.ofNat 1) 0)) .nil) .nil) .nil) .nil)) .nil))))) (.node (.node (.node (.node (.node (.node (.node (.node .nil (.node (.node (.leaf (.mult 46457 4914 (.ofNat 1) 0)) .nil) .nil)) .nil) .nil) (.node .nil (.node (.node (.node (.node (.leaf (.mult 34337 4532 (.ofNat 1) 0)) .nil) .nil) .nil) .nil))) (.node (.node .nil (.node (.node (.node (.node (.leaf (.mult 27767 4501 (.ofNat 1) 0)) .nil) .nil) .nil) .nil)) .nil)) (.node (.node (.node .nil (.node .nil (.node (.node (.node (.leaf (.mult 21569 4487 (.negSucc 0) 0)) .nil) .nil) .nil))) .nil) (.node (.node (.node .nil (.node (.node (.node (.leaf (.mult 27919 4578 (.ofNat 1) 0)) .nil) .nil) .nil)) (.node (.node (.node (.node (.leaf (.mult 16657 4522 (.ofNat 1) 0)) .nil) .nil) .nil) .nil)) .nil))) (.node .nil (.node (.node (.node (.node .nil (.node (.node (.node (.leaf (.trans [(3340559, .negSucc 0)] 0)) .nil) .nil) .nil)) .nil) .nil) (.node (.node .nil (.node (.node (.node (.node (.leaf (.mult 45137 4555 (.ofNat 1) 0)) .nil) .nil) .nil) .nil)) (.node (.node .nil (.node (.node (.node (.leaf (.trans [(1084872769, .negSucc 0)] 0)) .nil) .nil) .nil)) .nil))))) (.node (.node (.node (.node (.node .nil (.node .nil (.node (.node (.node (.leaf (.trans [(594687341, .negSucc 0)] 0)) .nil) .nil) .nil))) (.node .nil (.node (.node (.node (.node (.leaf (.mult 11483 4530 (.ofNat 1) 0)) .nil) .nil) .nil) .nil))) (.node (.node .nil (.node (.node (.node (.node (.leaf (.trans [(821393, .negSucc 0)] 0)) .nil) .nil) .nil) (.node (.node (.node (.leaf (.trans [(9315203, .ofNat 1)] 0)) .nil) .nil) .nil))) .nil)) (.node (.node (.node (.node .nil (.node (.node (.node (.leaf (.mult 45191 4566 (.ofNat 1) 0)) .nil) .nil) .nil)) .nil) .nil) (.node (.node .nil (.node (.node (.node (.node (.leaf (.mult 14627 4540 (.ofNat 1) 0)) .nil) .nil) .nil) (.node (.node (.node (.leaf (.mult 21661 4515 (.ofNat 1) 0)) .nil) .nil) .nil))) .nil))) (.node (.node (.node (.node .nil (.node (.node (.node (.node (.leaf (.mult 21559 4482 (.ofNat 1) 0)) .nil) .nil) .nil) (.node (.node (.node (.leaf (.mult 21563 4484 (.ofNat 1) 0)) .nil) .nil) .nil))) .nil) (.node (.node .nil (.node (.node (.node (.node (.leaf (.trans [(1110516587, .negSucc 0)] 0)) .nil) .nil) .nil) (.node (.node (.node (.leaf (.mult 12577 4519 (.negSucc 0) 0)) .nil) .nil) .nil))) (.node .nil (.node .nil (.node (.node (.node .nil (.leaf (.trans [(1129, .ofNat 1)] 0))) .nil) .nil))))) (.node (.node (.node (.node .nil (.node (.node (.node (.leaf (.mult 34381 4574 (.negSucc 0) 0)) .nil) .nil) .nil)) (.node .nil (.node (.node (.node (.leaf (.trans [(25652257, .ofNat 1)] 0)) .nil) .nil) .nil))) .nil) (.node (.node .nil (.node (.node (.node (.node (.leaf (.mult 45083 4544 (.negSucc 0) 0)) .nil) .nil) .nil) .nil)) .nil)))))

def jac364 : JTree := .node (.node (.node (.node (.node .nil (.node (.node .nil (.node (.node (.node (.leaf (.mult 45707 4779 (.ofNat 1) 0)) .nil) .nil) .nil)) (.node (.node (.node (.node (.leaf (.mult 7963 4703 (.ofNat 1) 0)) .nil) .nil) .nil) .nil))) (.node (.node (.node .nil (.node (.node (.node (.leaf (.mult 28229 4731 (.ofNat 1) 0)) .nil) .nil) .nil)) (.node (.node (.node (.node (.leaf (.mult 10427 4640 (.ofNat 1) 0)) .nil) .nil) .nil) (.node (.node (.node (.leaf (.trans [(9443641, .ofNat 1)] 0)) .nil) .nil) .nil))) .nil)) (.node (.node (.node .nil (.node (.node (.node (.node (.leaf (.mult 34439 4618 (.ofNat 1) 0)) .nil) .nil) .nil) (.node (.node (.node (.leaf (.mult 34471 4646 (.ofNat 1) 0)) .nil) .nil) .nil))) .nil) (.node (.node (.node .nil (.node (.node (.node (.leaf (.trans [(1118214869, .negSucc 0)] 0)) .nil) .nil) .nil)) (.node (.node (.node (.node (.leaf (.trans [(355493, .negSucc 0)] 0)) .nil) .nil) .nil) .nil)) (.node .nil (.node .nil (.node (.node (.node .nil (.leaf (.trans [(1151, .ofNat 1)] 0))) .nil) .nil)))))) (.node (.node (.node (.node .nil (.node (.node (.node (.node (.leaf (.mult 11959 4602 (.ofNat 1) 0)) .nil) .nil) .nil) .nil)) (.node (.node .nil (.node (.node (.node (.leaf (.mult 34729 4795 (.ofNat 1) 0)) .nil) .nil) .nil)) (.node (.node (.node (.node (.leaf (.mult 14639 4691 (.ofNat 1) 0)) .nil) .nil) .nil) .nil))) (.node (.node (.node .nil (.node (.node (.node (.leaf (.trans [(28393, .ofNat 1), (132079, .negSucc 0)] 0)) .nil) .nil) .nil)) (.node (.node (.node (.node (.leaf (.mult 8171 702 (.ofNat 1) 0)) .nil) .nil) .nil) (.node (.node (.node (.leaf (.mult 21991 4664 (.ofNat 1) 0)) .nil) .nil) .nil))) (.node .nil (.node .nil (.node (.node (.node (.leaf (.mult 45953 4818 (.ofNat 1) 0)) .nil) .nil) .nil))))) (.node (.node (.node (.node .nil (.node (.node (.node (.leaf (.mult 22013 4718 (.negSucc 0) 0)) .nil) .nil) .nil)) (.node (.node (.node (.node (.leaf (.mult 7079 4629 (.ofNat 1) 0)) .nil) .nil) .nil) (.node (.node (.node (.leaf (.trans [(15396301, .ofNat 1)] 0)) .nil) .nil) .nil))) .nil) (.node (.node (.node .nil (.node (.node (.node (.leaf (.mult 45887 4808 (.ofNat 1) 0)) .nil) .nil) .nil)) (.node (.node (.node (.node (.leaf (.mult 16741 4697 (.ofNat 1) 0)) .nil) .nil) .nil) .nil)) .nil)))) (.node (.node (.node (.node (.node (.node (.node .nil (.node (.node (.leaf (.mult 46861 4968 (.ofNat 1) 0)) .nil) .nil)) .nil) .nil) (.node (.node .nil (.node (.node (.node (.leaf (.mult 34687 4787 (.ofNat 1) 0)) .nil) .nil) .nil)) (.node (.node (.node (.node (.leaf (.mult 28123 4684 (.ofNat 1) 0)) .nil) .nil) .nil) .nil))) (.node (.node (.node .nil (.node (.node (.node (.leaf (.mult 5393 4737 (.ofNat 1) 0)) .nil) .nil) .nil)) (.node (.node (.node (.node (.leaf (.mult 12611 4656 (.ofNat 1) 0)) .nil) .nil) .nil) .nil)) .nil)) (.node (.node (.node .nil (.node (.node (.node (.node (.leaf (.mult 5669 4626 (.ofNat 1) 0)) .nil) .nil) .nil) .nil)) .nil) (.node (.node (.node .nil (.node (.node (.node (.leaf (.mult 45599 4747 (.ofNat 1) 0)) .nil) .nil) .nil)) (.node .nil (.node (.node (.node (.leaf (.trans [(5977463, .ofNat 1)] 0)) .nil) .nil) .nil))) (.node .nil (.node .nil (.node (.node (.node .nil (.leaf (.trans [(1481, .ofNat 1)] 0))) .nil) .nil)))))) (.node (.node (.node (.node .nil (.node (.node (.node (.node (.leaf (.mult 11497 4604 (.ofNat 1) 0)) .nil) .nil) .nil) (.node (.node (.node (.leaf (.trans [(15317359, .ofNat 1)] 0)) .nil) .nil) .nil))) (.node (.node .nil (.node (.node (.node (.leaf (.mult 11981 4803 (.ofNat 1) 0)) .nil) .nil) .nil)) .nil)) (.node (.node (.node .nil (.node (.node (.node (.leaf (.mult 28319 4753 (.ofNat 1) 0)) .nil) .nil) .nil)) (.node (.node (.node (.node (.leaf (.mult 45361 4674 (.ofNat 1) 0)) .nil) .nil) .nil) .nil)) (.node .nil (.node .nil (.node (.node (.node (.leaf (.mult 22093 4824 (.ofNat 1) 0)) .nil) .nil) .nil))))) (.node (.node (.node (.node .nil (.node (.node (.node (.leaf (.mult 22027 4723 (.ofNat 1) 0)) .nil) .nil) .nil)) (.node (.node (.node (.node (.leaf (.mult 16699 4643 (.ofNat 1) 0)) .nil) .nil) .nil) .nil)) (.node .nil (.node .nil (.node (.node (.node (.leaf (.mult 22073 4816 (.ofNat 1) 0)) .nil) .nil) .nil)))) (.node (.node (.node .nil (.node (.node (.node (.leaf (.mult 34613 4771 (.ofNat 1) 0)) .nil) .nil) .nil)) (.node (.node (.node (.node (.leaf (.trans [(3472921, .ofNat 1)] 0)) .nil) .nil) .nil) .nil)) .nil))))

def jac365 : JTree := .node (.node (.node (.node (.node .nil (.node (.node .nil (.node (.node (.node (.leaf (.mult 16759 4783 (.ofNat 1) 0)) .nil) .nil) .nil)) (.node (.node (.node (.node (.leaf (.trans [(19518043, .ofNat 1)] 0)) .nil) .nil) .nil) .nil))) (.node (.node (.node .nil (.node (.node (.node (.leaf (.mult 9497 4734 (.ofNat 1) 0)) .nil) .nil) .nil)) (.node (.node (.node (.node (.leaf (.mult 28057 4655 (.ofNat 1) 0)) .nil) .nil) .nil) .nil)) .nil)) (.node (.node (.node .nil (.node (.node (.node (.node (.leaf (.mult 5981 691 (.ofNat 1) 0)) .nil) .nil) .nil) .nil)) .nil) (.node (.node (.node .nil (.node (.node (.node (.leaf (.mult 28283 4743 (.ofNat 1) 0)) .nil) .nil) .nil)) (.node (.node (.node (.node (.leaf (.trans [(126869, .negSucc 0)] 0)) .nil) .nil) .nil) (.node (.node (.node (.leaf (.trans [(18422947, .ofNat 1)] 0)) .nil) .nil) .nil))) (.node .nil (.node .nil (.node (.node (.node .nil (.leaf (.trans [(409, .ofNat 1)] 0))) .nil) .nil)))))) (.node (.node (.node .nil (.node (.node .nil (.node (.node (.node (.leaf (.mult 45823 4799 (.ofNat 1) 0)) .nil) .nil) .nil)) .nil)) (.node (.node (.node .nil (.node (.node (.node (.leaf (.mult 34589 4751 (.ofNat 1) 0)) .nil) .nil) .nil)) (.node (.node (.node (.node (.leaf (.mult 45319 4665 (.ofNat 1) 0)) .nil) .nil) .nil) (.node (.node (.node (.leaf (.mult 34483 4671 (.ofNat 1) 0)) .nil) .nil) .nil))) (.node .nil (.node .nil (.node (.node (.node (.leaf (.mult 22079 4819 (.ofNat 1) 0)) .nil) .nil) .nil))))) (.node (.node (.node (.node .nil (.node (.node (.node (.leaf (.mult 45541 4721 (.negSucc 0) 0)) .nil) .nil) .nil)) (.node (.node (.node (.node (.leaf (.mult 7079 4629 (.negSucc 0) 0)) .nil) .nil) .nil) .nil)) (.node .nil (.node .nil (.node (.node (.node (.leaf (.mult 45497 4715 (.ofNat 1) 0)) .nil) .nil) .nil)))) (.node (.node (.node .nil (.node (.node (.node (.leaf (.mult 22039 4811 (.ofNat 1) 0)) .nil) .nil) .nil)) (.node (.node (.node (.node (.leaf (.mult 5179 4700 (.ofNat 1) 0)) .nil) .nil) .nil) .nil)) .nil)))) (.node (.node (.node (.node (.node .nil (.node (.node (.node (.node (.leaf (.trans [(28436543, .negSucc 0)] 0)) .nil) .nil) .nil) (.node (.node (.node (.leaf (.mult 34421 4606 (.ofNat 1) 0)) .nil) .nil) .nil))) (.node (.node .nil (.node (.node (.node (.leaf (.mult 45779 4791 (.ofNat 1) 0)) .nil) .nil) .nil)) (.node (.node (.node (.node (.leaf (.mult 45413 4690 (.ofNat 1) 0)) .nil) .nil) .nil) (.node (.node (.node (.leaf (.mult 45979 4823 (.ofNat 1) 0)) .nil) .nil) .nil)))) (.node (.node (.node .nil (.node (.node (.node (.leaf (.mult 34603 4759 (.ofNat 1) 0)) .nil) .nil) .nil)) (.node (.node (.node (.node (.leaf (.mult 28069 4659 (.ofNat 1) 0)) .nil) .nil) .nil) .nil)) .nil)) (.node (.node (.node (.node .nil (.node (.node (.node (.leaf (.mult 45503 4716 (.ofNat 1) 0)) .nil) .nil) .nil)) (.node (.node (.node (.node (.leaf (.mult 5659 4623 (.ofNat 1) 0)) .nil) .nil) .nil) (.node (.node (.node (.leaf (.trans [(6663373, .ofNat 1)] 0)) .nil) .nil) .nil))) .nil) (.node (.node (.node .nil (.node (.node (.node (.leaf (.mult 22031 4767 (.ofNat 1) 0)) .nil) .nil) .nil)) (.node (.node (.node (.node (.leaf (.mult 45433 4696 (.ofNat 1) 0)) .nil) .nil) .nil) (.node (.node (.node (.leaf (.trans [(7834171, .ofNat 1)] 0)) .nil) .nil) .nil))) (.node .nil (.node .nil (.node (.node (.node .nil (.leaf (.trans [(46471, .negSucc 0)] 0))) .nil) .nil)))))) (.node (.node (.node (.node .nil (.node (.node (.node (.node (.leaf (.mult 27967 4614 (.ofNat 1) 0)) .nil) .nil) .nil) (.node (.node (.node (.leaf (.trans [(20689783, .ofNat 1)] 0)) .nil) .nil) .nil))) (.node (.node .nil (.node (.node (.node (.leaf (.trans [(227363437, .ofNat 1)] 0)) .nil) .nil) .nil)) .nil)) (.node (.node (.node .nil (.node (.node (.node (.leaf (.trans [(95028287, .negSucc 0)] 0)) .nil) .nil) .nil)) (.node (.node (.node (.node (.leaf (.mult 45341 4669 (.ofNat 1) 0)) .nil) .nil) .nil) .nil)) (.node .nil (.node .nil (.node (.node (.node (.leaf (.trans [(22093, .ofNat 1)] 0)) .nil) .nil) .nil))))) (.node (.node (.node (.node .nil (.node (.node (.node (.leaf (.mult 28219 4727 (.ofNat 1) 0)) .nil) .nil) .nil)) (.node (.node (.node (.node (.leaf (.trans [(1782853, .ofNat 1)] 0)) .nil) .nil) .nil) (.node (.node (.node (.leaf (.mult 21943 4651 (.ofNat 1) 0)) .nil) .nil) .nil))) .nil) (.node (.node (.node .nil (.node (.node (.node (.leaf (.mult 34649 4775 (.ofNat 1) 0)) .nil) .nil) .nil)) (.node (.node (.node (.node (.leaf (.mult 11527 4705 (.ofNat 1) 0)) .nil) .nil) .nil) .nil)) .nil))))

def jac366 : JTree := .node (.node (.node (.node (.node .nil (.node (.node .nil (.node (.node (.node (.leaf (.mult 45737 4782 (.ofNat 1) 0)) .nil) .nil) .nil)) (.node (.node (.node (.node (.leaf (.mult 11519 4699 (.ofNat 1) 0)) .nil) .nil) .nil) .nil))) (.node (.node (.node .nil (.node (.node (.node (.leaf (.mult 45569 4733 (.ofNat 1) 0)) .nil) .nil) .nil)) (.node (.node (.node (.node (.leaf (.mult 21961 4657 (.ofNat 1) 0)) .nil) .nil) .nil) .nil)) (.node .nil (.node .nil (.node (.node (.node (.leaf (.mult 45971 4821 (.ofNat 1) 0)) .nil) .nil) .nil))))) (.node (.node (.node .nil (.node .nil (.node (.node (.node (.leaf (.trans [(10834193, .ofNat 1)] 0)) .nil) .nil) .nil))) .nil) (.node (.node (.node .nil (.node (.node (.node (.leaf (.trans [(93013553, .negSucc 0)] 0)) .nil) .nil) .nil)) .nil) (.node .nil (.node .nil (.node (.node (.node .nil (.leaf (.trans [(433, .negSucc 0)] 0))) .nil) .nil)))))) (.node (.node (.node (.node .nil (.node (.node (.node (.node (.leaf (.mult 16673 4607 (.ofNat 1) 0)) .nil) .nil) .nil) .nil)) (.node (.node .nil (.node (.node (.node (.leaf (.mult 34739 4797 (.ofNat 1) 0)) .nil) .nil) .nil)) .nil)) (.node (.node (.node .nil (.node (.node (.node (.leaf (.mult 45641 4762 (.ofNat 1) 0)) .nil) .nil) .nil)) (.node .nil (.node (.node (.node (.leaf (.mult 12613 4658 (.ofNat 1) 0)) .nil) .nil) .nil))) .nil)) (.node (.node (.node (.node .nil (.node (.node (.node (.leaf (.mult 45553 4722 (.ofNat 1) 0)) .nil) .nil) .nil)) (.node (.node (.node (.node (.leaf (.mult 7951 4631 (.ofNat 1) 0)) .nil) .nil) .nil) .nil)) (.node .nil (.node .nil (.node (.node (.node .nil (.leaf (.trans [(1, .ofNat 1)] 0))) .nil) .nil)))) (.node (.node (.node .nil (.node (.node (.node (.leaf (.mult 45863 4806 (.ofNat 1) 0)) .nil) .nil) .nil)) (.node (.node (.node (.node (.leaf (.trans [(3983081, .ofNat 1)] 0)) .nil) .nil) .nil) .nil)) .nil)))) (.node (.node (.node (.node (.node .nil (.node (.node (.node (.node (.leaf (.mult 4651 677 (.ofNat 1) 0)) .nil) .nil) .nil) (.node (.node (.node (.leaf (.mult 27961 4611 (.ofNat 1) 0)) .nil) .nil) .nil))) (.node (.node .nil (.node (.node (.node (.leaf (.mult 45763 4788 (.ofNat 1) 0)) .nil) .nil) .nil)) (.node (.node (.node (.node (.leaf (.mult 45403 4689 (.ofNat 1) 0)) .nil) .nil) .nil) .nil))) (.node (.node (.node .nil (.node (.node (.node (.leaf (.mult 45659 4763 (.ofNat 1) 0)) .nil) .nil) .nil)) (.node (.node (.node (.node (.leaf (.mult 28081 4660 (.ofNat 1) 0)) .nil) .nil) .nil) (.node (.node (.node (.leaf (.trans [(11232581, .ofNat 1)] 0)) .nil) .nil) .nil))) .nil)) (.node (.node (.node (.node .nil (.node (.node (.node (.leaf (.trans [(34452511, .negSucc 0)] 0)) .nil) .nil) .nil)) (.node (.node (.node (.node (.leaf (.trans [(1422919, .ofNat 1)] 0)) .nil) .nil) .nil) .nil)) (.node .nil (.node .nil (.node (.node (.node (.leaf (.mult 28181 4713 (.ofNat 1) 0)) .nil) .nil) .nil)))) (.node (.node (.node .nil (.node (.node (.node (.leaf (.mult 28411 4765 (.ofNat 1) 0)) .nil) .nil) .nil)) (.node (.node (.node (.node (.leaf (.trans [(3004721, .negSucc 0)] 0)) .nil) .nil) .nil) .nil)) .nil))) (.node (.node (.node (.node .nil (.node (.node (.node (.node (.leaf (.mult 4651 677 (.ofNat 1) 0)) .nil) .nil) .nil) .nil)) (.node (.node .nil (.node (.node (.node (.leaf (.mult 22067 4815 (.ofNat 1) 0)) .nil) .nil) .nil)) .nil)) (.node (.node (.node .nil (.node (.node (.node (.leaf (.mult 45631 4755 (.ofNat 1) 0)) .nil) .nil) .nil)) (.node (.node (.node (.node (.leaf (.trans [(17742533, .negSucc 1)] 0)) .nil) .nil) .nil) (.node (.node (.node (.leaf (.trans [(14134231, .ofNat 1)] 0)) .nil) .nil) .nil))) (.node .nil (.node .nil (.node (.node (.node (.leaf (.trans [(22091, .ofNat 1)] 0)) .nil) .nil) .nil))))) (.node (.node (.node (.node .nil (.node (.node (.node (.leaf (.mult 34513 4725 (.ofNat 1) 0)) .nil) .nil) .nil)) (.node (.node (.node (.node (.leaf (.mult 9463 4645 (.ofNat 1) 0)) .nil) .nil) .nil) (.node (.node (.node (.leaf (.trans [(14691643, .ofNat 1)] 0)) .nil) .nil) .nil))) .nil) (.node (.node (.node .nil (.node (.node (.node (.leaf (.mult 34631 4773 (.ofNat 1) 0)) .nil) .nil) .nil)) (.node (.node (.node (.node (.leaf (.mult 7993 4707 (.ofNat 1) 0)) .nil) .nil) .nil) .nil)) (.node (.node .nil (.node (.node (.node (.leaf (.trans [(36152057, .ofNat 1)] 0)) .nil) .nil) .nil)) .nil)))))

def jac367 : JTree := .node (.node (.node (.node (.node (.node (.node (.node .nil (.node (.node (.leaf (.mult 45989 4825 (.ofNat 1) 0)) .nil) .nil)) .nil) .nil) (.node (.node .nil (.node (.node (.node (.leaf (.mult 34679 4785 (.ofNat 1) 0)) .nil) .nil) .nil)) (.node (.node (.node (.node (.leaf (.mult 28109 4682 (.ofNat 1) 0)) .nil) .nil) .nil) .nil))) (.node (.node (.node .nil (.node (.node (.node (.leaf (.mult 5843 4742 (.ofNat 1) 0)) .nil) .nil) .nil)) (.node (.node (.node (.node (.leaf (.mult 28027 4652 (.ofNat 1) 0)) .nil) .nil) .nil) .nil)) (.node .nil (.node .nil (.node (.node (.node (.leaf (.mult 22091 4822 (.ofNat 1) 0)) .nil) .nil) .nil))))) (.node (.node (.node .nil (.node (.node (.node (.node (.leaf (.trans [(647, .ofNat 1), (217799, .negSucc 0), (232721, .ofNat 1)] 0)) .nil) .nil) .nil) .nil)) .nil) (.node (.node (.node .nil (.node (.node (.node (.leaf (.mult 28289 4745 (.ofNat 1) 0)) .nil) .nil) .nil)) (.node (.node (.node (.node (.leaf (.mult 11971 4680 (.negSucc 0) 0)) .nil) .nil) .nil) .nil)) .nil))) (.node (.node (.node .nil (.node (.node .nil (.node (.node (.node (.leaf (.mult 45827 4801 (.ofNat 1) 0)) .nil) .nil) .nil)) .nil)) (.node (.node (.node .nil (.node (.node (.node (.leaf (.mult 28309 4749 (.ofNat 1) 0)) .nil) .nil) .nil)) (.node (.node (.node (.node (.leaf (.mult 9467 4667 (.ofNat 1) 0)) .nil) .nil) .nil) .nil)) .nil)) (.node (.node (.node (.node .nil (.node (.node (.node (.leaf (.mult 45533 4720 (.negSucc 0) 0)) .nil) .nil) .nil)) (.node (.node (.node (.node (.leaf (.mult 7951 4631 (.negSucc 0) 0)) .nil) .nil) .nil) .nil)) .nil) (.node (.node (.node .nil (.node (.node (.node (.leaf (.mult 45673 4769 (.ofNat 1) 0)) .nil) .nil) .nil)) (.node (.node (.node (.node (.leaf (.mult 6361 4698 (.ofNat 1) 0)) .nil) .nil) .nil) .nil)) (.node (.node .nil (.node (.node (.node (.leaf (.mult 34403 4605 (.ofNat 1) 0)) .nil) .nil) .nil)) .nil))))) (.node (.node (.node (.node (.node .nil (.node (.node (.node (.node (.leaf (.mult 14629 4601 (.negSucc 0) 0)) .nil) .nil) .nil) (.node (.node (.node (.leaf (.trans [(7529969, .ofNat 1)] 0)) .nil) .nil) .nil))) (.node (.node .nil (.node (.node (.node (.leaf (.mult 45817 4794 (.ofNat 1) 0)) .nil) .nil) .nil)) (.node (.node (.node (.node (.leaf (.trans [(11311309, .ofNat 1)] 0)) .nil) .nil) .nil) .nil))) (.node (.node (.node .nil (.node (.node (.node (.leaf (.mult 28387 4757 (.ofNat 1) 0)) .nil) .nil) .nil)) (.node (.node (.node (.node (.leaf (.trans [(459413, .negSucc 0), (523111, .ofNat 1)] 0)) .nil) .nil) .nil) .nil)) .nil)) (.node (.node (.node (.node .nil (.node (.node (.node (.leaf (.trans [(34163267, .ofNat 1)] 0)) .nil) .nil) .nil)) (.node (.node (.node (.node (.leaf (.mult 21841 4625 (.ofNat 1) 0)) .nil) .nil) .nil) .nil)) .nil) (.node (.node (.node .nil (.node (.node (.node (.leaf (.mult 45853 4805 (.ofNat 1) 0)) .nil) .nil) .nil)) (.node (.node (.node (.node (.leaf (.trans [(14863231, .ofNat 1)] 0)) .nil) .nil) .nil) (.node (.node (.node (.leaf (.mult 12619 4678 (.ofNat 1) 0)) .nil) .nil) .nil))) (.node .nil (.node .nil (.node (.node (.node .nil (.leaf (.trans [(47339, .negSucc 0)] 0))) .nil) .nil)))))) (.node (.node (.node (.node .nil (.node .nil (.node (.node (.node (.leaf (.mult 21803 4612 (.ofNat 1) 0)) .nil) .nil) .nil))) .nil) (.node (.node (.node .nil (.node (.node (.node (.leaf (.mult 45587 4738 (.ofNat 1) 0)) .nil) .nil) .nil)) (.node (.node (.node (.node (.leaf (.mult 45337 4668 (.ofNat 1) 0)) .nil) .nil) .nil) .nil)) (.node .nil (.node .nil (.node (.node (.node .nil (.leaf (.trans [(1249, .negSucc 0)] 0))) .nil) .nil))))) (.node (.node (.node (.node .nil (.node (.node (.node (.leaf (.mult 34519 4729 (.ofNat 1) 0)) .nil) .nil) .nil)) (.node (.node (.node (.node (.leaf (.mult 21881 4639 (.ofNat 1) 0)) .nil) .nil) .nil) (.node (.node (.node (.leaf (.trans [(9451399, .ofNat 1)] 0)) .nil) .nil) .nil))) .nil) (.node (.node (.node .nil (.node (.node (.node (.leaf (.mult 34651 4776 (.ofNat 1) 0)) .nil) .nil) .nil)) (.node (.node (.node (.node (.leaf (.trans [(3472921, .ofNat 1), (4419221, .ofNat 1)] 0)) .nil) .nil) .nil) (.node (.node (.node (.leaf (.mult 45959 4820 (.ofNat 1) 0)) .nil) .nil) .nil))) .nil))))

def jac368 : JTree := .node (.node (.node (.node (.node (.node .nil (.node .nil (.node (.node (.node (.leaf (.trans [(17247403, .ofNat 1)] 0)) .nil) .nil) .nil))) (.node (.node .nil (.node (.node (.node (.leaf (.mult 34667 4780 (.ofNat 1) 0)) .nil) .nil) .nil)) (.node (.node (.node (.node (.leaf (.mult 9479 4704 (.ofNat 1) 0)) .nil) .nil) .nil) .nil))) (.node (.node (.node .nil (.node (.node (.node (.leaf (.mult 28277 4732 (.ofNat 1) 0)) .nil) .nil) .nil)) (.node (.node (.node (.node (.leaf (.mult 21929 4649 (.ofNat 1) 0)) .nil) .nil) .nil) .nil)) .nil)) (.node (.node (.node .nil (.node (.node (.node (.node (.leaf (.mult 34457 4619 (.negSucc 0) 0)) .nil) .nil) .nil) (.node (.node (.node (.leaf (.mult 34469 4641 (.ofNat 1) 0)) .nil) .nil) .nil))) .nil) (.node (.node (.node .nil (.node (.node (.node (.leaf (.mult 34549 4740 (.negSucc 0) 0)) .nil) .nil) .nil)) .nil) (.node .nil (.node .nil (.node (.node (.node .nil (.leaf (.trans [(433, .negSucc 0)] 0))) .nil) .nil)))))) (.node (.node (.node (.node .nil (.node (.node (.node (.node (.leaf (.trans [(29746979, .ofNat 1)] 0)) .nil) .nil) .nil) .nil)) (.node (.node .nil (.node (.node (.node (.leaf (.mult 45821 4796 (.ofNat 1) 0)) .nil) .nil) .nil)) (.node (.node (.node (.node (.leaf (.mult 14653 4693 (.ofNat 1) 0)) .nil) .nil) .nil) (.node (.node (.node (.leaf (.mult 28151 4710 (.ofNat 1) 0)) .nil) .nil) .nil)))) (.node (.node (.node .nil (.node (.node (.node (.leaf (.mult 28403 4761 (.ofNat 1) 0)) .nil) .nil) .nil)) (.node .nil (.node (.node (.node (.leaf (.mult 21937 4650 (.ofNat 1) 0)) .nil) .nil) .nil))) .nil)) (.node (.node (.node (.node .nil (.node (.node (.node (.leaf (.mult 28201 4719 (.ofNat 1) 0)) .nil) .nil) .nil)) (.node (.node (.node (.node (.leaf (.mult 7103 4630 (.ofNat 1) 0)) .nil) .nil) .nil) .nil)) .nil) (.node (.node (.node .nil (.node (.node (.node (.leaf (.mult 45869 4807 (.ofNat 1) 0)) .nil) .nil) .nil)) (.node (.node (.node (.node (.leaf (.mult 14657 4694 (.ofNat 1) 0)) .nil) .nil) .nil) .nil)) .nil)))) (.node (.node (.node (.node (.node (.node (.node .nil (.node (.node (.leaf (.mult 47339 5007 (.ofNat 1) 0)) .nil) .nil)) .nil) (.node (.node (.node (.node (.leaf (.trans [(259367, .ofNat 1)] 0)) .nil) .nil) .nil) (.node (.node (.node (.leaf (.trans [(21579869, .ofNat 1)] 0)) .nil) .nil) .nil))) (.node (.node .nil (.node (.node (.node (.leaf (.mult 34693 4789 (.ofNat 1) 0)) .nil) .nil) .nil)) (.node (.node (.node (.node (.leaf (.mult 45377 4685 (.ofNat 1) 0)) .nil) .nil) .nil) .nil))) (.node (.node (.node .nil (.node (.node (.node (.leaf (.trans [(1720081171, .ofNat 1)] 0)) .nil) .nil) .nil)) (.node (.node (.node (.node (.leaf (.mult 28097 4662 (.ofNat 1) 0)) .nil) .nil) .nil) .nil)) .nil)) (.node (.node (.node (.node .nil (.node (.node (.node (.leaf (.mult 22037 4768 (.ofNat 1) 0)) .nil) .nil) .nil)) (.node (.node (.node (.node (.leaf (.trans [(1456933, .ofNat 1)] 0)) .nil) .nil) .nil) .nil)) .nil) (.node (.node (.node .nil (.node (.node (.node (.leaf (.mult 28409 4764 (.ofNat 1) 0)) .nil) .nil) .nil)) (.node (.node (.node (.node (.leaf (.mult 28099 4681 (.ofNat 1) 0)) .nil) .nil) .nil) .nil)) (.node .nil (.node .nil (.node (.node (.node .nil (.leaf (.trans [(1481, .ofNat 1)] 0))) .nil) .nil)))))) (.node (.node (.node (.node .nil (.node (.node (.node (.node (.leaf (.mult 17021 684 (.ofNat 1) 0)) .nil) .nil) .nil) .nil)) (.node (.node .nil (.node (.node (.node (.leaf (.mult 22063 4814 (.ofNat 1) 0)) .nil) .nil) .nil)) .nil)) (.node (.node (.node .nil (.node (.node (.node (.leaf (.mult 28349 4754 (.ofNat 1) 0)) .nil) .nil) .nil)) (.node (.node (.node (.node (.leaf (.mult 45343 4673 (.ofNat 1) 0)) .nil) .nil) .nil) .nil)) (.node .nil (.node .nil (.node (.node (.node (.leaf (.trans [(22073, .ofNat 1)] 0)) .nil) .nil) .nil))))) (.node (.node (.node (.node .nil (.node (.node (.node (.leaf (.mult 34511 4724 (.ofNat 1) 0)) .nil) .nil) .nil)) (.node (.node (.node (.node (.leaf (.mult 10399 4624 (.negSucc 0) 0)) .nil) .nil) .nil) .nil)) .nil) (.node (.node (.node .nil (.node (.node (.node (.leaf (.mult 45677 4772 (.ofNat 1) 0)) .nil) .nil) .nil)) (.node (.node (.node (.node (.leaf (.trans [(4154257, .ofNat 1)] 0)) .nil) .nil) .nil) (.node (.node (.node (.leaf (.mult 45491 4709 (.ofNat 1) 0)) .nil) .nil) .nil))) .nil))))

end BP.EL
