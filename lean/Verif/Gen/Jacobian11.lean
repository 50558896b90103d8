import Verif.Lemmas.JTree
import Verif.Gen.Jacobian10

/-!
# Generated by tools/gen_jacobian.py
-/

namespace BP.EL

def jac285 : JTree := .node (.node (.node (.node (.node (.node (.node .nil (.node (.node (.leaf (.mult 39869 2947 (.ofNat 1) 0)) .nil) .nil)) .nil) (.node (.node (.node (.node (.leaf (.trans [(3373, .ofNat 1), (15271, .ofNat 1)] 0)) .nil) .nil) .nil) .nil)) (.node (.node (.node (.node (.node (.leaf (.mult 7757 2552 (.negSucc 0) 0)) .nil) .nil) .nil) (.node (.node (.node (.leaf (.mult 39229 2824 (.negSucc 0) 0)) .nil) .nil) .nil)) (.node (.node (.node (.node (.leaf (.mult 11287 2734 (.ofNat 1) 0)) .nil) .nil) .nil) (.node (.node (.node (.leaf (.mult 38707 2582 (.ofNat 1) 0)) .nil) .nil) .nil)))) (.node (.node (.node (.node (.node (.node (.leaf (.trans [(18681679, .ofNat 1)] 0)) .nil) .nil) .nil) (.node (.node (.node (.leaf (.mult 39097 2773 (.ofNat 1) 0)) .nil) .nil) .nil)) (.node (.node (.node (.node (.leaf (.mult 19163 2677 (.ofNat 1) 0)) .nil) .nil) .nil) (.node (.node (.node (.leaf (.trans [(2373517, .ofNat 1)] 0)) .nil) .nil) .nil))) (.node (.node (.node (.node (.node (.leaf (.mult 9817 2724 (.ofNat 1) 0)) .nil) .nil) .nil) (.node (.node (.node (.leaf (.mult 39829 2934 (.ofNat 1) 0)) .nil) .nil) .nil)) (.node (.node (.node (.node (.leaf (.mult 35507 1224 (.ofNat 1) 0)) .nil) .nil) .nil) (.node (.node (.node (.leaf (.mult 39779 2926 (.ofNat 1) 0)) .nil) .nil) .nil))))) (.node (.node (.node (.node (.node (.node (.node (.leaf (.mult 3343 1204 (.ofNat 1) 0)) .nil) .nil) .nil) (.node (.node (.node (.leaf (.mult 3079 1551 (.negSucc 0) 0)) .nil) .nil) .nil)) (.node (.node (.node (.node (.leaf (.trans [(5120693, .ofNat 1)] 0)) .nil) .nil) .nil) (.node (.node (.node (.leaf (.trans [(11166101, .ofNat 1)] 0)) .nil) .nil) .nil))) (.node (.node (.node (.node (.node (.leaf (.mult 4397 2733 (.ofNat 1) 0)) .nil) .nil) .nil) (.node (.node (.node (.leaf (.trans [(4747333, .ofNat 1)] 0)) .nil) .nil) .nil)) (.node (.node (.node (.node (.leaf (.mult 13219 1226 (.ofNat 2) 1)) .nil) .nil) .nil) (.node (.node (.node (.leaf (.mult 31159 2589 (.ofNat 1) 0)) .nil) .nil) .nil)))) (.node (.node (.node .nil (.node (.node (.node (.leaf (.mult 31333 2781 (.ofNat 1) 0)) .nil) .nil) .nil)) (.node .nil (.node (.node (.node (.leaf (.trans [(3370343, .ofNat 1)] 0)) .nil) .nil) .nil))) (.node (.node .nil (.node (.node (.node (.leaf (.mult 39857 2942 (.ofNat 1) 0)) .nil) .nil) .nil)) (.node (.node (.node (.node (.leaf (.trans [(293681797, .negSucc 0)] 0)) .nil) .nil) .nil) (.node (.node (.node (.leaf (.mult 39937 2965 (.ofNat 1) 0)) (.leaf (.trans [(1367, .ofNat 1)] 0))) .nil) .nil)))))) (.node (.node (.node (.node (.node .nil (.node (.node (.node (.leaf (.mult 35771 1629 (.ofNat 1) 0)) .nil) .nil) .nil)) (.node (.node (.node (.node (.leaf (.mult 15877 2618 (.ofNat 1) 0)) .nil) .nil) .nil) .nil)) (.node (.node (.node (.node (.node (.leaf (.trans [(232343, .negSucc 0)] 0)) .nil) .nil) .nil) (.node (.node (.node (.leaf (.mult 31547 2839 (.ofNat 1) 0)) .nil) .nil) .nil)) (.node .nil (.node (.node (.node (.leaf (.mult 24841 2550 (.ofNat 1) 0)) .nil) .nil) .nil)))) (.node (.node (.node (.node (.node (.node (.leaf (.mult 859 1201 (.ofNat 1) 0)) .nil) .nil) .nil) (.node (.node (.node (.leaf (.mult 39161 2804 (.ofNat 1) 0)) .nil) .nil) .nil)) (.node .nil (.node (.node (.node (.leaf (.mult 12379 2678 (.ofNat 1) 0)) .nil) .nil) .nil))) (.node (.node (.node (.node (.node (.leaf (.mult 7013 2532 (.ofNat 1) 0)) .nil) .nil) .nil) (.node (.node (.node (.leaf (.mult 31751 2935 (.ofNat 1) 0)) .nil) .nil) .nil)) (.node (.node (.node (.node (.leaf (.mult 10937 1255 (.ofNat 1) 0)) .nil) .nil) .nil) (.node (.node (.node (.leaf (.mult 8693 2586 (.ofNat 1) 0)) .nil) .nil) .nil))))) (.node (.node (.node (.node (.node (.node (.node (.leaf (.trans [(20812669, .ofNat 1)] 0)) .nil) .nil) .nil) (.node (.node (.node (.leaf (.mult 39047 2761 (.ofNat 1) 0)) .nil) .nil) .nil)) (.node (.node (.node (.node (.leaf (.mult 7759 2646 (.ofNat 1) 0)) .nil) .nil) .nil) (.node (.node (.node (.leaf (.trans [(2589031, .ofNat 1)] 0)) .nil) .nil) .nil))) (.node .nil (.node (.node (.node (.node (.leaf (.trans [(9117377, .ofNat 2)] 1)) .nil) .nil) .nil) (.node (.node (.node (.leaf (.mult 19319 2861 (.ofNat 1) 0)) .nil) .nil) .nil)))) (.node (.node (.node (.node (.node (.node (.leaf (.trans [(976897, .negSucc 1)] 0)) .nil) .nil) .nil) (.node (.node (.node (.leaf (.mult 39367 2848 (.ofNat 1) 0)) .nil) .nil) .nil)) (.node (.node (.node (.node (.leaf (.trans [(3668173, .ofNat 1)] 0)) .nil) .nil) .nil) (.node (.node (.node (.leaf (.mult 39409 2855 (.ofNat 1) 0)) .nil) .nil) .nil))) (.node (.node (.node (.node (.node (.leaf (.mult 17387 1287 (.ofNat 1) 0)) .nil) .nil) .nil) (.node (.node (.node (.leaf (.mult 19423 2946 (.ofNat 1) 0)) .nil) .nil) .nil)) (.node (.node (.node (.node (.leaf (.trans [(43518791, .ofNat 1)] 0)) .nil) .nil) .nil) (.node (.node (.node (.leaf (.mult 46591 4932 (.ofNat 1) 0)) .nil) .nil) .nil))))))

def jac286 : JTree := .node (.node (.node (.node (.node (.node .nil (.node (.node (.node (.leaf (.trans [(2156551, .ofNat 1)] 0)) .nil) .nil) .nil)) (.node (.node (.node (.node (.leaf (.mult 4751 2613 (.ofNat 1) 0)) .nil) .nil) .nil) (.node (.node (.node (.leaf (.mult 24919 2622 (.ofNat 1) 0)) .nil) .nil) .nil))) (.node (.node (.node (.node (.node (.leaf (.trans [(232343, .negSucc 0)] 0)) .nil) .nil) .nil) (.node (.node (.node (.leaf (.mult 39241 2830 (.ofNat 1) 0)) .nil) .nil) .nil)) (.node (.node (.node (.node (.leaf (.mult 38891 2721 (.ofNat 1) 0)) .nil) .nil) .nil) (.node (.node (.node (.leaf (.mult 12343 2537 (.negSucc 0) 0)) .nil) .nil) .nil)))) (.node (.node (.node (.node (.node (.node (.leaf (.mult 4079 1271 (.ofNat 1) 0)) .nil) .nil) .nil) (.node (.node (.node (.leaf (.mult 39163 2805 (.ofNat 1) 0)) .nil) .nil) .nil)) (.node (.node (.node (.node (.leaf (.mult 25033 2680 (.ofNat 1) 0)) .nil) .nil) .nil) (.node (.node (.node (.leaf (.trans [(10349453, .ofNat 1)] 0)) .nil) .nil) .nil))) (.node (.node (.node (.node (.node (.leaf (.trans [(1414592573, .ofNat 1)] 0)) .nil) .nil) .nil) .nil) (.node (.node (.node (.node (.leaf (.trans [(926441, .ofNat 1)] 0)) .nil) .nil) .nil) (.node (.node (.node (.leaf (.mult 18947 2584 (.ofNat 1) 0)) .nil) .nil) .nil))))) (.node (.node (.node (.node (.node (.node (.node (.leaf (.trans [(71033, .ofNat 1)] 0)) .nil) .nil) .nil) (.node (.node (.node (.leaf (.trans [(108768089, .ofNat 1)] 0)) .nil) .nil) .nil)) (.node (.node (.node (.node (.leaf (.mult 38749 2641 (.ofNat 1) 0)) .nil) .nil) .nil) (.node (.node (.node (.leaf (.trans [(2758627, .ofNat 1)] 0)) .nil) .nil) .nil))) (.node (.node (.node (.node (.node (.leaf (.mult 19213 2711 (.negSucc 0) 0)) .nil) .nil) .nil) .nil) (.node (.node (.node (.node (.leaf (.mult 29137 1237 (.ofNat 2) 1)) .nil) .nil) .nil) (.node (.node (.node (.leaf (.mult 25127 2748 (.ofNat 1) 0)) .nil) .nil) .nil)))) (.node (.node (.node (.node (.node (.node (.leaf (.mult 3539 2538 (.negSucc 0) 0)) .nil) .nil) .nil) (.node (.node (.node (.leaf (.mult 25339 2807 (.ofNat 1) 0)) .nil) .nil) .nil)) (.node (.node (.node (.node (.leaf (.trans [(2969581, .ofNat 1)] 0)) .nil) .nil) .nil) (.node (.node (.node (.leaf (.trans [(386846617, .ofNat 2)] 0)) .nil) .nil) .nil))) (.node (.node (.node (.node (.node (.leaf (.trans [(528893, .ofNat 1)] 0)) .nil) .nil) .nil) (.node (.node (.node (.leaf (.mult 25367 2872 (.ofNat 1) 0)) .nil) .nil) .nil)) (.node (.node (.node (.node (.leaf (.mult 22921 1303 (.ofNat 1) 0)) .nil) .nil) .nil) (.node (.node (.node (.leaf (.mult 31181 2600 (.ofNat 1) 0)) .nil) .nil) .nil)))))) (.node (.node (.node (.node (.node (.node (.node (.node (.leaf (.trans [(76127, .ofNat 1)] 0)) .nil) .nil) .nil) (.node (.node (.node (.leaf (.mult 3697 1313 (.negSucc 0) 0)) .nil) .nil) .nil)) (.node (.node (.node (.node (.leaf (.mult 4751 2613 (.ofNat 1) 0)) .nil) .nil) .nil) (.node (.node (.node (.leaf (.trans [(2104858967, .negSucc 0)] 0)) .nil) .nil) .nil))) (.node (.node (.node (.node (.node (.leaf (.trans [(315253, .ofNat 1)] 0)) .nil) .nil) .nil) (.node (.node (.node (.leaf (.mult 19381 2865 (.negSucc 0) 0)) .nil) .nil) .nil)) (.node (.node (.node (.node (.leaf (.mult 17351 1219 (.ofNat 1) 0)) .nil) .nil) .nil) (.node (.node (.node (.leaf (.mult 24877 2590 (.ofNat 1) 0)) .nil) .nil) .nil)))) (.node (.node (.node (.node (.node (.node (.leaf (.trans [(1611793, .ofNat 1)] 0)) .nil) .nil) .nil) (.node (.node (.node (.leaf (.mult 39139 2796 (.ofNat 1) 0)) .nil) .nil) .nil)) (.node (.node (.node (.node (.leaf (.mult 38851 2701 (.ofNat 1) 0)) .nil) .nil) .nil) (.node (.node (.node (.leaf (.trans [(13035383, .ofNat 1)] 0)) .nil) .nil) .nil))) (.node (.node .nil (.node (.node (.node (.leaf (.mult 31687 2913 (.ofNat 1) 0)) .nil) .nil) .nil)) (.node (.node (.node (.node (.leaf (.mult 17471 1323 (.ofNat 1) 0)) .nil) .nil) .nil) (.node (.node (.node (.leaf (.trans [(19421, .ofNat 1), (19423, .negSucc 0)] 0)) .nil) .nil) .nil))))) (.node (.node (.node (.node (.node (.node (.node (.leaf (.mult 7603 1278 (.negSucc 0) 0)) .nil) .nil) .nil) (.node (.node (.node (.leaf (.mult 31307 2765 (.ofNat 1) 0)) .nil) .nil) .nil)) (.node (.node (.node (.node (.leaf (.mult 8719 2665 (.ofNat 1) 0)) .nil) .nil) .nil) (.node (.node (.node (.leaf (.trans [(14474657, .ofNat 1)] 0)) .nil) .nil) .nil))) (.node (.node (.node (.node (.node (.leaf (.mult 38693 2546 (.ofNat 1) 0)) .nil) .nil) .nil) .nil) (.node (.node (.node (.node (.leaf (.trans [(7155493, .ofNat 2)] 1)) .nil) .nil) .nil) (.node (.node (.node (.leaf (.mult 24917 2598 (.ofNat 1) 0)) .nil) .nil) .nil)))) (.node (.node (.node (.node (.node (.node (.leaf (.mult 2593 1307 (.ofNat 1) 0)) .nil) .nil) .nil) (.node (.node (.node (.leaf (.mult 31397 2815 (.ofNat 1) 0)) .nil) .nil) .nil)) (.node (.node (.node (.node (.leaf (.mult 7817 2742 (.ofNat 1) 0)) .nil) .nil) .nil) (.node (.node (.node (.leaf (.trans [(8798094463, .ofNat 1)] 0)) .nil) .nil) .nil))) (.node (.node (.node (.node (.node (.leaf (.trans [(608231929, .ofNat 2)] 1)) .nil) .nil) .nil) (.node (.node (.node (.leaf (.trans [(35734883, .ofNat 1)] 0)) .nil) .nil) .nil)) (.node .nil (.node (.node (.node (.leaf (.mult 46183 4874 (.ofNat 1) 0)) .nil) .nil) .nil))))))

def jac287 : JTree := .node (.node (.node (.node (.node (.node (.node (.node (.node (.leaf (.trans [(283, .ofNat 1)] 0)) .nil) .nil) (.node (.node (.leaf (.mult 40031 2977 (.negSucc 0) 0)) .nil) .nil)) .nil) (.node (.node (.node (.node (.leaf (.trans [(17333, .ofNat 1), (17341, .negSucc 0)] 0)) .nil) .nil) .nil) .nil)) (.node (.node (.node (.node (.node (.leaf (.trans [(2043871, .ofNat 1)] 0)) .nil) .nil) .nil) (.node (.node (.node (.leaf (.mult 31511 2827 (.ofNat 1) 0)) .nil) .nil) .nil)) (.node (.node (.node (.node (.leaf (.mult 25087 2712 (.ofNat 1) 0)) .nil) .nil) .nil) (.node (.node (.node (.leaf (.mult 18773 2548 (.ofNat 1) 0)) .nil) .nil) .nil)))) (.node (.node (.node (.node (.node (.node (.leaf (.trans [(19128253, .negSucc 0)] 0)) .nil) .nil) .nil) (.node (.node (.node (.leaf (.mult 5783 2783 (.ofNat 2) 1)) .nil) .nil) .nil)) (.node (.node (.node (.node (.leaf (.mult 24977 2672 (.ofNat 1) 0)) .nil) .nil) .nil) (.node (.node (.node (.leaf (.trans [(1017259, .ofNat 1)] 0)) .nil) .nil) .nil))) (.node (.node (.node (.node (.node (.leaf (.trans [(424268297, .ofNat 2)] 0)) .nil) .nil) .nil) (.node (.node (.node (.leaf (.mult 39671 2907 (.ofNat 1) 0)) .nil) .nil) .nil)) (.node (.node (.node (.node (.leaf (.mult 13259 1239 (.ofNat 1) 0)) .nil) .nil) .nil) (.node (.node (.node (.leaf (.mult 19421 2927 (.ofNat 1) 0)) .nil) .nil) .nil))))) (.node (.node (.node (.node (.node (.node (.node (.leaf (.mult 2281 1207 (.ofNat 2) 1)) .nil) .nil) .nil) (.node (.node (.node (.leaf (.mult 11093 1642 (.ofNat 1) 0)) .nil) .nil) .nil)) (.node (.node (.node (.node (.leaf (.mult 6271 2660 (.ofNat 1) 0)) .nil) .nil) .nil) (.node (.node (.node (.leaf (.trans [(6203257, .negSucc 0)] 0)) .nil) .nil) .nil))) (.node (.node (.node (.node (.node (.leaf (.trans [(315253, .ofNat 1), (401153, .ofNat 1)] 0)) .nil) .nil) .nil) (.node (.node (.node (.leaf (.mult 25373 2903 (.ofNat 1) 0)) .nil) .nil) .nil)) (.node (.node (.node (.node (.leaf (.mult 13267 1241 (.ofNat 2) 1)) .nil) .nil) .nil) (.node (.node (.node (.leaf (.trans [(1036586921, .ofNat 1)] 0)) .nil) .nil) .nil)))) (.node (.node (.node .nil (.node (.node (.node (.leaf (.mult 25229 2786 (.ofNat 1) 0)) .nil) .nil) .nil)) (.node (.node (.node (.node (.leaf (.mult 11831 2709 (.ofNat 1) 0)) .nil) .nil) .nil) (.node (.node (.node (.leaf (.trans [(295163501, .ofNat 2)] 0)) .nil) .nil) .nil))) (.node (.node (.node (.node (.node (.leaf (.trans [(314519, .ofNat 1)] 0)) .nil) .nil) .nil) (.node (.node (.node (.leaf (.mult 39749 2918 (.ofNat 1) 0)) .nil) .nil) .nil)) (.node (.node (.node (.node (.leaf (.mult 35801 1634 (.ofNat 1) 0)) .nil) .nil) .nil) (.node (.node (.node (.leaf (.mult 40013 2975 (.ofNat 1) 0)) .nil) .nil) .nil)))))) (.node (.node (.node (.node (.node .nil (.node (.node (.node (.leaf (.mult 23131 1497 (.ofNat 1) 0)) .nil) .nil) .nil)) (.node (.node (.node (.node (.leaf (.mult 9791 2611 (.ofNat 1) 0)) .nil) .nil) .nil) .nil)) (.node (.node (.node (.node (.node (.leaf (.mult 3373 1318 (.ofNat 1) 0)) .nil) .nil) .nil) (.node (.node (.node (.leaf (.mult 39323 2843 (.ofNat 1) 0)) .nil) .nil) .nil)) (.node .nil (.node (.node (.node (.leaf (.mult 25411 2956 (.ofNat 1) 0)) .nil) .nil) .nil)))) (.node (.node (.node .nil (.node (.node (.node (.leaf (.mult 25247 2790 (.ofNat 1) 0)) .nil) .nil) .nil)) (.node (.node (.node (.node (.leaf (.mult 8731 2688 (.ofNat 1) 0)) .nil) .nil) .nil) .nil)) (.node (.node (.node (.node (.node (.leaf (.trans [(7019, .ofNat 1), (7741, .ofNat 1)] 0)) .nil) .nil) .nil) (.node (.node (.node (.leaf (.mult 39839 2937 (.ofNat 1) 0)) .nil) .nil) .nil)) (.node (.node (.node (.node (.leaf (.mult 15187 1253 (.ofNat 1) 0)) .nil) .nil) .nil) (.node (.node (.node (.leaf (.mult 8707 2601 (.ofNat 1) 0)) .nil) .nil) .nil))))) (.node (.node (.node (.node (.node (.node (.node (.leaf (.mult 7109 220 (.ofNat 1) 0)) .nil) .nil) .nil) (.node (.node (.node (.leaf (.mult 39019 2757 (.negSucc 0) 0)) .nil) .nil) .nil)) (.node (.node (.node (.node (.leaf (.mult 7759 2646 (.negSucc 0) 0)) .nil) .nil) .nil) (.node (.node (.node (.leaf (.mult 18803 2561 (.negSucc 0) 0)) .nil) .nil) .nil))) (.node (.node (.node (.node (.node (.leaf (.mult 7727 2534 (.ofNat 1) 0)) .nil) .nil) .nil) (.node (.node (.node (.leaf (.mult 39503 2876 (.ofNat 1) 0)) .nil) .nil) .nil)) (.node (.node (.node (.node (.leaf (.mult 22861 1242 (.ofNat 2) 1)) .nil) .nil) .nil) (.node (.node (.node (.leaf (.mult 13859 2888 (.ofNat 1) 0)) .nil) .nil) .nil)))) (.node (.node (.node .nil (.node (.node (.node (.leaf (.mult 39191 2811 (.ofNat 1) 0)) .nil) .nil) .nil)) (.node (.node (.node (.node (.leaf (.mult 6277 2732 (.ofNat 1) 0)) .nil) .nil) .nil) (.node (.node (.node (.leaf (.mult 39563 2889 (.ofNat 1) 0)) .nil) .nil) .nil))) (.node (.node (.node (.node (.node (.leaf (.mult 35509 1275 (.ofNat 1) 0)) .nil) .nil) .nil) (.node (.node (.node (.leaf (.mult 31189 2616 (.ofNat 1) 0)) .nil) .nil) .nil)) (.node (.node (.node (.node (.leaf (.mult 12157 1261 (.ofNat 1) 0)) .nil) .nil) .nil) (.node (.node (.node (.leaf (.mult 31729 2923 (.ofNat 1) 0)) .nil) .nil) .nil))))))

def jac288 : JTree := .node (.node (.node (.node (.node (.node .nil (.node (.node (.node (.leaf (.mult 29683 1626 (.ofNat 1) 0)) .nil) .nil) .nil)) (.node (.node (.node (.node (.leaf (.mult 13789 2606 (.ofNat 1) 0)) .nil) .nil) .nil) (.node (.node (.node (.leaf (.trans [(7691869, .ofNat 1)] 0)) .nil) .nil) .nil))) (.node (.node .nil (.node (.node (.node (.leaf (.mult 39301 2836 (.negSucc 1) 1)) .nil) .nil) .nil)) (.node (.node (.node (.node (.leaf (.trans [(10666627, .ofNat 1)] 0)) .nil) .nil) .nil) (.node (.node (.node (.leaf (.mult 13729 2551 (.ofNat 1) 0)) .nil) .nil) .nil)))) (.node (.node (.node (.node (.node (.node (.leaf (.mult 3847 1290 (.ofNat 1) 0)) .nil) .nil) .nil) (.node (.node (.node (.leaf (.mult 25303 2798 (.ofNat 1) 0)) .nil) .nil) .nil)) (.node (.node (.node (.node (.leaf (.mult 8747 2695 (.ofNat 1) 0)) .nil) .nil) .nil) (.node (.node (.node (.leaf (.trans [(2813999, .ofNat 1)] 0)) .nil) .nil) .nil))) (.node (.node (.node (.node (.node (.leaf (.trans [(1205600947, .ofNat 1)] 0)) .nil) .nil) .nil) (.node (.node (.node (.leaf (.mult 31643 2882 (.ofNat 1) 0)) .nil) .nil) .nil)) (.node (.node (.node (.node (.leaf (.mult 10939 1258 (.ofNat 1) 0)) .nil) .nil) .nil) (.node (.node (.node (.leaf (.mult 38699 2573 (.ofNat 1) 0)) .nil) .nil) .nil))))) (.node (.node (.node (.node (.node (.node (.node (.leaf (.mult 1301 1263 (.ofNat 1) 0)) .nil) .nil) .nil) (.node (.node (.node (.leaf (.trans [(107854933, .negSucc 0)] 0)) .nil) .nil) .nil)) (.node (.node (.node (.node (.leaf (.mult 19037 2638 (.ofNat 1) 0)) .nil) .nil) .nil) (.node (.node (.node (.leaf (.trans [(1612357, .ofNat 1)] 0)) .nil) .nil) .nil))) (.node (.node (.node (.node (.node (.leaf (.trans [(1895897, .negSucc 1)] 0)) .nil) .nil) .nil) .nil) (.node (.node (.node (.node (.leaf (.trans [(9131149, .ofNat 2)] 1)) .nil) .nil) .nil) (.node (.node (.node (.leaf (.mult 39551 2887 (.ofNat 1) 0)) .nil) .nil) .nil)))) (.node (.node (.node (.node (.node (.node (.leaf (.trans [(1036927, .negSucc 0)] 0)) .nil) .nil) .nil) (.node (.node (.node (.leaf (.mult 39359 2847 (.ofNat 1) 0)) .nil) .nil) .nil)) (.node (.node (.node (.node (.leaf (.trans [(13688123, .ofNat 1)] 0)) .nil) .nil) .nil) (.node (.node (.node (.leaf (.mult 12391 2706 (.ofNat 1) 0)) .nil) .nil) .nil))) (.node (.node (.node (.node (.node (.leaf (.trans [(542573, .negSucc 0)] 0)) .nil) .nil) .nil) (.node (.node (.node (.leaf (.mult 39659 2904 (.ofNat 1) 0)) .nil) .nil) .nil)) (.node (.node (.node (.node (.leaf (.mult 1867 1312 (.ofNat 1) 0)) .nil) .nil) .nil) (.node (.node (.node (.leaf (.mult 34877 4869 (.ofNat 1) 0)) (.leaf (.trans [(47093, .ofNat 1)] 0))) .nil) .nil)))))) (.node (.node (.node (.node (.node (.node (.node (.node (.leaf (.trans [(19107877, .ofNat 1)] 0)) .nil) .nil) .nil) (.node (.node (.node (.leaf (.mult 4969 1495 (.ofNat 1) 0)) .nil) .nil) .nil)) (.node (.node (.node (.node (.leaf (.trans [(4689889, .ofNat 1)] 0)) .nil) .nil) .nil) (.node (.node (.node (.leaf (.mult 19001 2625 (.ofNat 1) 0)) .nil) .nil) .nil))) (.node (.node .nil (.node (.node (.node (.leaf (.mult 31583 2868 (.ofNat 1) 0)) .nil) .nil) .nil)) (.node (.node (.node (.node (.leaf (.mult 29131 1235 (.ofNat 1) 0)) .nil) .nil) .nil) (.node (.node (.node (.leaf (.mult 31859 2957 (.ofNat 1) 0)) .nil) .nil) .nil)))) (.node (.node (.node (.node (.node (.node (.leaf (.trans [(1898933, .negSucc 0)] 0)) .nil) .nil) .nil) (.node (.node (.node (.leaf (.mult 39107 2779 (.ofNat 1) 0)) .nil) .nil) .nil)) (.node (.node (.node (.node (.leaf (.mult 38803 2689 (.ofNat 1) 0)) .nil) .nil) .nil) .nil)) (.node (.node (.node (.node (.node (.leaf (.mult 3691 1280 (.ofNat 1) 0)) .nil) .nil) .nil) (.node (.node (.node (.leaf (.trans [(19107877, .ofNat 1)] 0)) .nil) .nil) .nil)) (.node .nil (.node (.node (.node (.leaf (.mult 39929 2963 (.ofNat 1) 0)) (.leaf (.trans [(15277, .ofNat 1)] 0))) .nil) .nil))))) (.node (.node (.node (.node .nil (.node (.node (.node (.leaf (.mult 31319 2769 (.ofNat 1) 0)) .nil) .nil) .nil)) (.node (.node (.node (.node (.leaf (.mult 19081 2656 (.ofNat 1) 0)) .nil) .nil) .nil) (.node (.node (.node (.leaf (.trans [(8248909, .ofNat 1)] 0)) .nil) .nil) .nil))) (.node (.node (.node (.node (.node (.leaf (.mult 38653 2527 (.negSucc 1) 0)) .nil) .nil) .nil) .nil) (.node (.node (.node (.node (.leaf (.trans [(7158623, .negSucc 1)] 1)) .nil) .nil) .nil) (.node (.node (.node (.leaf (.mult 18787 2555 (.ofNat 1) 0)) .nil) .nil) .nil)))) (.node (.node (.node (.node (.node (.node (.leaf (.trans [(227417, .negSucc 0)] 0)) .nil) .nil) .nil) (.node (.node (.node (.leaf (.mult 31477 2818 (.ofNat 1) 0)) .nil) .nil) .nil)) (.node (.node (.node (.node (.leaf (.trans [(3199873, .ofNat 1), (4071773, .ofNat 1)] 0)) .nil) .nil) .nil) (.node (.node (.node (.leaf (.mult 39769 2925 (.ofNat 1) 0)) .nil) .nil) .nil))) (.node (.node (.node (.node (.node (.leaf (.trans [(727518107, .ofNat 2)] 1)) .nil) .nil) .nil) (.node (.node (.node (.leaf (.trans [(2371723, .ofNat 1)] 0)) .nil) .nil) .nil)) (.node (.node (.node (.node (.leaf (.mult 29629 1546 (.ofNat 1) 0)) .nil) .nil) .nil) (.node (.node (.node (.leaf (.mult 39607 2897 (.ofNat 1) 0)) .nil) .nil) .nil))))))

def jac289 : JTree := .node (.node (.node (.node (.node (.node (.node .nil (.node (.node (.leaf (.mult 47057 4981 (.ofNat 1) 0)) .nil) .nil)) (.node (.node (.node (.leaf (.mult 29179 1259 (.ofNat 1) 0)) .nil) .nil) .nil)) (.node (.node (.node (.node (.leaf (.trans [(15137, .ofNat 1), (15139, .ofNat 1)] 0)) .nil) .nil) .nil) (.node (.node (.node (.leaf (.trans [(15883799, .ofNat 1)] 0)) .nil) .nil) .nil))) (.node (.node (.node (.node (.node (.leaf (.mult 9829 2727 (.ofNat 1) 0)) .nil) .nil) .nil) (.node (.node (.node (.leaf (.mult 31481 2822 (.ofNat 1) 0)) .nil) .nil) .nil)) (.node (.node (.node (.node (.leaf (.mult 8761 2739 (.ofNat 1) 0)) .nil) .nil) .nil) (.node (.node (.node (.leaf (.mult 38711 2588 (.ofNat 1) 0)) .nil) .nil) .nil)))) (.node (.node (.node .nil (.node (.node (.node (.leaf (.mult 25183 2772 (.ofNat 1) 0)) .nil) .nil) .nil)) (.node (.node (.node (.node (.leaf (.mult 19139 2669 (.ofNat 1) 0)) .nil) .nil) .nil) (.node (.node (.node (.leaf (.trans [(694682783, .ofNat 1)] 0)) .nil) .nil) .nil))) (.node (.node (.node (.node (.node (.leaf (.mult 10253 2525 (.ofNat 1) 0)) .nil) .nil) .nil) (.node (.node (.node (.leaf (.mult 39461 2874 (.ofNat 1) 0)) .nil) .nil) .nil)) (.node (.node (.node (.node (.leaf (.trans [(596891, .ofNat 2)] 1)) .nil) .nil) .nil) (.node (.node (.node (.leaf (.mult 18899 2567 (.ofNat 1) 0)) .nil) .nil) .nil))))) (.node (.node (.node (.node (.node (.node (.node (.leaf (.mult 3511 1205 (.ofNat 1) 0)) .nil) .nil) .nil) (.node (.node (.node (.leaf (.mult 3167 1550 (.ofNat 1) 0)) .nil) .nil) .nil)) (.node (.node (.node (.node (.leaf (.mult 31231 2632 (.ofNat 1) 0)) .nil) .nil) .nil) (.node (.node (.node (.leaf (.mult 31247 2661 (.ofNat 1) 0)) .nil) .nil) .nil))) (.node (.node (.node (.node (.node (.leaf (.mult 4273 2574 (.ofNat 1) 0)) .nil) .nil) .nil) (.node (.node (.node (.leaf (.mult 31741 2928 (.ofNat 1) 0)) .nil) .nil) .nil)) (.node (.node (.node (.node (.leaf (.mult 13217 1221 (.ofNat 2) 1)) .nil) .nil) .nil) (.node (.node (.node (.leaf (.trans [(9825029, .negSucc 1)] 0)) .nil) .nil) .nil)))) (.node (.node (.node (.node (.node (.node (.leaf (.mult 6529 1273 (.ofNat 1) 0)) .nil) .nil) .nil) (.node (.node (.node (.leaf (.trans [(476512639, .ofNat 1)] 0)) .nil) .nil) .nil)) (.node .nil (.node (.node (.node (.leaf (.trans [(1963585501, .ofNat 1)] 0)) .nil) .nil) .nil))) (.node (.node (.node (.node (.node (.leaf (.trans [(458581, .negSucc 1)] 0)) .nil) .nil) .nil) (.node (.node (.node (.leaf (.mult 39521 2883 (.ofNat 1) 0)) .nil) .nil) .nil)) (.node (.node (.node (.node (.leaf (.mult 22901 1298 (.ofNat 1) 0)) .nil) .nil) .nil) (.node (.node (.node (.leaf (.mult 16001 2964 (.ofNat 1) 0)) (.leaf (.mult 1367 1552 (.ofNat 1) 0))) .nil) .nil)))))) (.node (.node (.node (.node (.node .nil (.node (.node (.node (.leaf (.mult 35753 1627 (.ofNat 1) 0)) .nil) .nil) .nil)) (.node (.node (.node (.node (.leaf (.mult 12347 2609 (.ofNat 1) 0)) .nil) .nil) .nil) (.node (.node (.node (.leaf (.trans [(1646254781, .negSucc 0)] 0)) .nil) .nil) .nil))) (.node (.node (.node (.node (.node (.leaf (.mult 2039 1202 (.negSucc 0) 0)) .nil) .nil) .nil) (.node (.node (.node (.leaf (.mult 39313 2838 (.ofNat 1) 0)) .nil) .nil) .nil)) (.node (.node (.node (.node (.leaf (.mult 13829 2726 (.ofNat 1) 0)) .nil) .nil) .nil) (.node (.node (.node (.leaf (.mult 25117 2745 (.ofNat 1) 0)) .nil) .nil) .nil)))) (.node (.node (.node (.node (.node (.node (.leaf (.mult 4703 1209 (.negSucc 0) 0)) .nil) .nil) .nil) (.node (.node (.node (.leaf (.mult 25309 2803 (.ofNat 1) 0)) .nil) .nil) .nil)) (.node .nil (.node (.node (.node (.leaf (.mult 19141 2670 (.ofNat 1) 0)) .nil) .nil) .nil))) (.node (.node (.node (.node (.node (.leaf (.trans [(7351, .ofNat 1), (2069321, .ofNat 1)] 0)) .nil) .nil) .nil) (.node (.node (.node (.leaf (.mult 31771 2938 (.ofNat 1) 0)) .nil) .nil) .nil)) (.node (.node (.node (.node (.leaf (.mult 17383 1277 (.ofNat 1) 0)) .nil) .nil) .nil) (.node (.node (.node (.leaf (.mult 8803 2968 (.ofNat 1) 0)) .nil) .nil) .nil))))) (.node (.node (.node (.node (.node (.node (.node (.leaf (.trans [(17829283, .ofNat 1), (18691867, .ofNat 1)] 0)) .nil) .nil) .nil) (.node (.node (.node (.leaf (.mult 25153 2756 (.ofNat 1) 0)) .nil) .nil) .nil)) (.node (.node (.node (.node (.leaf (.mult 7349 2645 (.ofNat 1) 0)) .nil) .nil) .nil) (.node (.node (.node (.leaf (.mult 18839 2562 (.negSucc 0) 0)) .nil) .nil) .nil))) (.node (.node (.node (.node (.node (.leaf (.trans [(2028233, .negSucc 1)] 0)) .nil) .nil) .nil) .nil) (.node (.node (.node (.node (.leaf (.trans [(9119881, .ofNat 2)] 1)) .nil) .nil) .nil) (.node (.node (.node (.leaf (.mult 13873 2890 (.ofNat 1) 0)) .nil) .nil) .nil)))) (.node (.node (.node (.node (.node (.node (.leaf (.mult 2677 2693 (.ofNat 1) 0)) .nil) .nil) .nil) (.node (.node (.node (.leaf (.mult 39371 2849 (.ofNat 1) 0)) .nil) .nil) .nil)) (.node (.node (.node (.node (.leaf (.mult 13831 2728 (.ofNat 1) 0)) .nil) .nil) .nil) (.node (.node (.node (.leaf (.mult 38971 2751 (.ofNat 1) 0)) .nil) .nil) .nil))) (.node (.node (.node (.node (.node (.leaf (.mult 17359 1265 (.ofNat 1) 0)) .nil) .nil) .nil) (.node (.node (.node (.leaf (.mult 19391 2886 (.ofNat 1) 0)) .nil) .nil) .nil)) (.node .nil (.node (.node (.node (.leaf (.mult 35129 4931 (.ofNat 1) 0)) .nil) .nil) .nil))))))

def jac290 : JTree := .node (.node (.node (.node (.node (.node (.node .nil (.node (.node (.leaf (.mult 47093 4984 (.negSucc 0) 0)) .nil) .nil)) .nil) (.node (.node (.node (.node (.leaf (.mult 5101 2614 (.ofNat 1) 0)) .nil) .nil) .nil) (.node (.node (.node (.leaf (.trans [(21159421, .ofNat 1)] 0)) .nil) .nil) .nil))) (.node (.node (.node (.node (.node (.leaf (.trans [(227417, .ofNat 1)] 0)) .nil) .nil) .nil) (.node (.node (.node (.leaf (.mult 31517 2831 (.negSucc 1) 1)) .nil) .nil) .nil)) (.node (.node (.node (.node (.leaf (.mult 38867 2715 (.ofNat 1) 0)) .nil) .nil) .nil) .nil))) (.node (.node (.node (.node (.node (.node (.leaf (.mult 4091 1291 (.ofNat 1) 0)) .nil) .nil) .nil) (.node (.node (.node (.leaf (.trans [(1700944351, .ofNat 2)] 1)) .nil) .nil) .nil)) (.node (.node (.node (.node (.leaf (.mult 25057 2682 (.ofNat 1) 0)) .nil) .nil) .nil) .nil)) (.node .nil (.node .nil (.node (.node (.node (.leaf (.mult 38713 2591 (.ofNat 1) 0)) .nil) .nil) .nil))))) (.node (.node (.node (.node (.node (.node (.node (.leaf (.trans [(72731, .ofNat 1)] 0)) .nil) .nil) .nil) (.node (.node (.node (.leaf (.mult 19259 2810 (.ofNat 1) 0)) .nil) .nil) .nil)) (.node (.node (.node (.node (.leaf (.mult 38747 2640 (.ofNat 1) 0)) .nil) .nil) .nil) (.node (.node (.node (.leaf (.trans [(2745167, .ofNat 1)] 0)) .nil) .nil) .nil))) (.node (.node (.node (.node (.node (.leaf (.trans [(509387, .ofNat 1)] 0)) .nil) .nil) .nil) (.node (.node (.node (.leaf (.trans [(4747333, .negSucc 0)] 0)) .nil) .nil) .nil)) (.node (.node (.node (.node (.leaf (.mult 29153 1243 (.negSucc 1) 1)) .nil) .nil) .nil) .nil))) (.node (.node (.node .nil (.node (.node (.node (.leaf (.mult 25321 2806 (.ofNat 1) 0)) .nil) .nil) .nil)) (.node (.node (.node (.node (.leaf (.mult 25073 2710 (.ofNat 1) 0)) .nil) .nil) .nil) (.node (.node (.node (.leaf (.trans [(1007771449, .ofNat 1)] 0)) .nil) .nil) .nil))) (.node (.node (.node (.node (.node (.leaf (.trans [(530471, .ofNat 1)] 0)) .nil) .nil) .nil) (.node (.node (.node (.leaf (.mult 39443 2871 (.ofNat 1) 0)) .nil) .nil) .nil)) (.node (.node (.node (.node (.leaf (.mult 17449 1311 (.ofNat 1) 0)) .nil) .nil) .nil) (.node (.node (.node (.leaf (.mult 6869 2976 (.ofNat 1) 0)) (.leaf (.trans [(2393, .ofNat 1)] 0))) .nil) .nil)))))) (.node (.node (.node (.node (.node (.node (.node (.node (.leaf (.trans [(74513, .negSucc 0)] 0)) .nil) .nil) .nil) (.node (.node (.node (.leaf (.mult 23509 1639 (.ofNat 1) 0)) .nil) .nil) .nil)) (.node (.node (.node (.node (.leaf (.mult 18979 2624 (.ofNat 1) 0)) .nil) .nil) .nil) (.node (.node (.node (.leaf (.trans [(7166083, .ofNat 1)] 0)) .nil) .nil) .nil))) (.node (.node (.node (.node (.node (.leaf (.trans [(363697, .ofNat 1)] 0)) .nil) .nil) .nil) (.node (.node (.node (.leaf (.mult 19333 2862 (.negSucc 0) 0)) .nil) .nil) .nil)) .nil)) (.node (.node (.node (.node (.node (.node (.leaf (.mult 6481 1213 (.negSucc 0) 0)) .nil) .nil) .nil) (.node (.node (.node (.leaf (.mult 25261 2795 (.ofNat 1) 0)) .nil) .nil) .nil)) (.node (.node (.node (.node (.leaf (.mult 38839 2700 (.ofNat 1) 0)) .nil) .nil) .nil) .nil)) (.node (.node (.node (.node (.node (.leaf (.mult 7753 2545 (.ofNat 1) 0)) .nil) .nil) .nil) (.node (.node (.node (.leaf (.mult 31667 2912 (.ofNat 1) 0)) .nil) .nil) .nil)) (.node (.node (.node (.node (.leaf (.mult 15173 1218 (.ofNat 1) 0)) .nil) .nil) .nil) (.node (.node (.node (.leaf (.trans [(19387, .ofNat 1), (19391, .negSucc 0)] 0)) .nil) .nil) .nil))))) (.node (.node (.node (.node .nil (.node (.node (.node (.leaf (.mult 31277 2764 (.ofNat 1) 0)) .nil) .nil) .nil)) (.node (.node (.node (.node (.leaf (.mult 10271 2637 (.negSucc 0) 0)) .nil) .nil) .nil) (.node (.node (.node (.leaf (.trans [(5738857, .ofNat 1)] 0)) .nil) .nil) .nil))) (.node (.node (.node (.node (.node (.leaf (.mult 38671 2531 (.negSucc 1) 0)) .nil) .nil) .nil) (.node (.node (.node (.leaf (.mult 39863 2945 (.ofNat 1) 0)) .nil) .nil) .nil)) (.node (.node (.node (.node (.leaf (.trans [(7139843, .negSucc 1)] 1)) .nil) .nil) .nil) (.node (.node (.node (.leaf (.mult 39901 2960 (.ofNat 1) 0)) .nil) .nil) .nil)))) (.node (.node (.node .nil (.node (.node (.node (.leaf (.mult 39199 2814 (.ofNat 1) 0)) .nil) .nil) .nil)) (.node (.node (.node (.node (.leaf (.trans [(3827641, .ofNat 1)] 0)) .nil) .nil) .nil) (.node (.node (.node (.leaf (.mult 38953 2744 (.ofNat 1) 0)) .nil) .nil) .nil))) (.node (.node (.node (.node (.node (.leaf (.mult 17341 1217 (.ofNat 1) 0)) .nil) .nil) .nil) (.node (.node (.node (.leaf (.mult 31123 2559 (.ofNat 1) 0)) .nil) .nil) .nil)) (.node (.node (.node (.node (.leaf (.mult 29443 1493 (.ofNat 1) 0)) .nil) .nil) .nil) (.node (.node (.node (.leaf (.mult 34883 4872 (.ofNat 1) 0)) .nil) .nil) .nil))))))

def jac291 : JTree := .node (.node (.node (.node (.node (.node (.node (.node (.node (.leaf (.trans [(277, .negSucc 0)] 0)) .nil) .nil) (.node (.node (.leaf (.mult 47087 4983 (.ofNat 1) 0)) .nil) .nil)) (.node (.node (.node (.leaf (.trans [(31545511, .ofNat 1)] 0)) .nil) .nil) .nil)) (.node (.node (.node (.node (.leaf (.mult 15227 1276 (.ofNat 1) 0)) .nil) .nil) .nil) (.node (.node (.node (.leaf (.trans [(14891633, .ofNat 1)] 0)) .nil) .nil) .nil))) (.node (.node .nil (.node (.node (.node (.leaf (.mult 39233 2826 (.ofNat 1) 0)) .nil) .nil) .nil)) (.node (.node (.node (.node (.leaf (.trans [(19229591, .ofNat 1)] 0)) .nil) .nil) .nil) (.node (.node (.node (.leaf (.mult 39619 2898 (.ofNat 1) 0)) .nil) .nil) .nil)))) (.node (.node (.node (.node (.node (.node (.leaf (.trans [(19107877, .negSucc 0)] 0)) .nil) .nil) .nil) (.node (.node (.node (.leaf (.mult 3541 2777 (.ofNat 1) 0)) .nil) .nil) .nil)) (.node (.node (.node (.node (.leaf (.mult 24979 2673 (.ofNat 1) 0)) .nil) .nil) .nil) (.node (.node (.node (.leaf (.trans [(5334487, .ofNat 1)] 0)) .nil) .nil) .nil))) (.node (.node (.node (.node (.node (.leaf (.mult 7019 2543 (.ofNat 1) 0)) .nil) .nil) .nil) (.node (.node (.node (.leaf (.mult 39703 2909 (.ofNat 1) 0)) .nil) .nil) .nil)) (.node (.node (.node (.node (.leaf (.mult 6491 1229 (.ofNat 1) 0)) .nil) .nil) .nil) (.node (.node (.node (.leaf (.mult 13781 2599 (.ofNat 1) 0)) .nil) .nil) .nil))))) (.node (.node (.node (.node (.node (.node (.node (.leaf (.mult 1907 1212 (.ofNat 2) 1)) .nil) .nil) .nil) (.node (.node (.node (.leaf (.mult 11083 1640 (.negSucc 0) 0)) .nil) .nil) .nil)) (.node (.node (.node (.node (.leaf (.mult 6863 2658 (.ofNat 1) 0)) .nil) .nil) .nil) (.node (.node (.node (.leaf (.trans [(5406581, .ofNat 1)] 0)) .nil) .nil) .nil))) (.node (.node (.node (.node (.node (.leaf (.trans [(363697, .ofNat 1), (462797, .ofNat 1)] 0)) .nil) .nil) .nil) .nil) (.node (.node (.node (.node (.leaf (.mult 13297 1246 (.ofNat 2) 1)) .nil) .nil) .nil) (.node (.node (.node (.leaf (.mult 31271 2747 (.ofNat 1) 0)) .nil) .nil) .nil)))) (.node (.node (.node .nil (.node (.node (.node (.leaf (.mult 39113 2785 (.ofNat 1) 0)) .nil) .nil) .nil)) (.node .nil (.node (.node (.node (.leaf (.trans [(768928397, .ofNat 1)] 0)) .nil) .nil) .nil))) (.node (.node (.node (.node (.node (.leaf (.trans [(15131, .ofNat 1)] 0)) .nil) .nil) .nil) (.node (.node (.node (.leaf (.mult 31721 2919 (.ofNat 1) 0)) .nil) .nil) .nil)) (.node (.node (.node (.node (.leaf (.mult 23117 1496 (.ofNat 1) 0)) .nil) .nil) .nil) (.node (.node (.node (.leaf (.mult 15959 2891 (.ofNat 1) 0)) (.leaf (.trans [(1031, .ofNat 1)] 0))) .nil) .nil)))))) (.node (.node (.node (.node (.node .nil (.node (.node (.node (.leaf (.mult 22937 1304 (.ofNat 1) 0)) .nil) .nil) .nil)) (.node (.node (.node (.node (.leaf (.mult 8713 2620 (.ofNat 1) 0)) .nil) .nil) .nil) (.node (.node (.node (.leaf (.trans [(1487861, .negSucc 1)] 0)) .nil) .nil) .nil))) (.node (.node (.node (.node (.node (.leaf (.mult 3371 1292 (.ofNat 1) 0)) .nil) .nil) .nil) (.node (.node (.node (.leaf (.mult 31573 2842 (.ofNat 1) 0)) .nil) .nil) .nil)) (.node .nil (.node (.node (.node (.leaf (.mult 25147 2749 (.ofNat 1) 0)) .nil) .nil) .nil)))) (.node (.node (.node .nil (.node (.node (.node (.leaf (.mult 25243 2789 (.ofNat 1) 0)) .nil) .nil) .nil)) (.node (.node (.node (.node (.leaf (.mult 38791 2687 (.ofNat 1) 0)) .nil) .nil) .nil) (.node (.node (.node (.leaf (.trans [(11004919, .ofNat 1)] 0)) .nil) .nil) .nil))) (.node (.node (.node (.node (.node (.leaf (.mult 8669 2528 (.ofNat 1) 0)) .nil) .nil) .nil) (.node (.node (.node (.leaf (.mult 31793 2940 (.ofNat 1) 0)) .nil) .nil) .nil)) (.node (.node (.node (.node (.leaf (.mult 15193 1260 (.ofNat 1) 0)) .nil) .nil) .nil) (.node (.node (.node (.leaf (.mult 8807 2970 (.ofNat 1) 0)) .nil) .nil) .nil))))) (.node (.node (.node (.node .nil (.node (.node (.node (.leaf (.mult 39043 2760 (.ofNat 1) 0)) .nil) .nil) .nil)) (.node (.node (.node (.node (.leaf (.mult 9803 2649 (.ofNat 1) 0)) .nil) .nil) .nil) (.node (.node (.node (.leaf (.trans [(6913729, .ofNat 1)] 0)) .nil) .nil) .nil))) (.node (.node (.node (.node (.node (.leaf (.trans [(19213, .negSucc 0)] 0)) .nil) .nil) .nil) .nil) (.node (.node (.node (.node (.leaf (.mult 22853 1232 (.ofNat 2) 1)) .nil) .nil) .nil) (.node (.node (.node (.leaf (.mult 13879 2959 (.ofNat 1) 0)) .nil) .nil) .nil)))) (.node (.node (.node (.node (.node (.node (.leaf (.mult 4759 2696 (.ofNat 1) 0)) .nil) .nil) .nil) .nil) (.node (.node (.node (.node (.leaf (.mult 4517 2736 (.ofNat 1) 0)) .nil) .nil) .nil) (.node (.node (.node (.leaf (.trans [(5179957, .ofNat 1)] 0)) .nil) .nil) .nil))) (.node (.node (.node (.node (.node (.leaf (.mult 15271 1321 (.ofNat 1) 0)) .nil) .nil) .nil) (.node (.node (.node (.leaf (.mult 31219 2621 (.ofNat 1) 0)) .nil) .nil) .nil)) (.node (.node (.node (.node (.leaf (.mult 29201 1281 (.ofNat 1) 0)) .nil) .nil) .nil) (.node (.node (.node (.leaf (.mult 31723 2921 (.ofNat 1) 0)) .nil) .nil) .nil))))))

def jac292 : JTree := .node (.node (.node (.node (.node (.node .nil (.node (.node (.node (.leaf (.mult 29611 1545 (.ofNat 1) 0)) .nil) .nil) .nil)) (.node (.node (.node (.node (.leaf (.mult 5099 2605 (.ofNat 1) 0)) .nil) .nil) .nil) (.node (.node (.node (.leaf (.trans [(14025481, .ofNat 1)] 0)) .nil) .nil) .nil))) (.node (.node (.node (.node (.node (.leaf (.trans [(386899, .negSucc 1)] 0)) .nil) .nil) .nil) (.node (.node (.node (.leaf (.mult 31531 2834 (.ofNat 1) 0)) .nil) .nil) .nil)) (.node (.node (.node (.node (.leaf (.trans [(12515693, .ofNat 1)] 0)) .nil) .nil) .nil) (.node (.node (.node (.leaf (.mult 24847 2556 (.ofNat 1) 0)) .nil) .nil) .nil)))) (.node (.node (.node (.node (.node (.node (.leaf (.mult 991 1264 (.ofNat 1) 0)) .nil) .nil) .nil) (.node (.node (.node (.leaf (.mult 25301 2797 (.ofNat 1) 0)) .nil) .nil) .nil)) (.node (.node (.node (.node (.leaf (.mult 19181 2683 (.ofNat 1) 0)) .nil) .nil) .nil) (.node (.node (.node (.leaf (.trans [(2823481, .ofNat 1)] 0)) .nil) .nil) .nil))) (.node (.node .nil (.node (.node (.node (.leaf (.mult 39511 2881 (.ofNat 1) 0)) .nil) .nil) .nil)) (.node (.node (.node (.node (.leaf (.mult 10957 1309 (.ofNat 1) 0)) .nil) .nil) .nil) (.node (.node (.node (.leaf (.mult 8689 2571 (.ofNat 1) 0)) .nil) .nil) .nil))))) (.node (.node (.node (.node (.node (.node (.node (.leaf (.trans [(17451277, .negSucc 0), (18295573, .negSucc 0)] 0)) .nil) .nil) .nil) (.node (.node (.node (.leaf (.trans [(105336919, .negSucc 0)] 0)) .nil) .nil) .nil)) (.node (.node (.node (.node (.leaf (.mult 10271 2637 (.ofNat 1) 0)) .nil) .nil) .nil) (.node (.node (.node (.leaf (.trans [(1394339, .ofNat 1)] 0)) .nil) .nil) .nil))) (.node (.node (.node (.node (.node (.leaf (.trans [(2683963, .ofNat 1)] 0)) .nil) .nil) .nil) .nil) (.node (.node (.node (.node (.leaf (.trans [(9096719, .ofNat 2)] 1)) .nil) .nil) .nil) (.node (.node (.node (.leaf (.mult 25343 2856 (.ofNat 1) 0)) .nil) .nil) .nil)))) (.node (.node (.node (.node (.node (.node (.leaf (.mult 4513 2685 (.negSucc 0) 0)) .nil) .nil) .nil) (.node (.node (.node (.leaf (.mult 39343 2846 (.ofNat 1) 0)) .nil) .nil) .nil)) (.node (.node (.node (.node (.leaf (.trans [(11962949, .ofNat 1)] 0)) .nil) .nil) .nil) (.node (.node (.node (.leaf (.mult 19211 2705 (.ofNat 1) 0)) .nil) .nil) .nil))) (.node (.node (.node (.node (.node (.leaf (.trans [(4241, .ofNat 1), (552037, .ofNat 1)] 0)) .nil) .nil) .nil) (.node (.node (.node (.leaf (.mult 25409 2931 (.ofNat 1) 0)) .nil) .nil) .nil)) (.node (.node (.node (.node (.leaf (.mult 35809 1636 (.ofNat 1) 0)) .nil) .nil) .nil) (.node (.node (.node (.leaf (.mult 38737 2603 (.ofNat 1) 0)) (.leaf (.trans [(46639, .negSucc 0)] 0))) .nil) .nil)))))) (.node (.node (.node (.node (.node (.node (.node (.node (.leaf (.trans [(19564639, .negSucc 0)] 0)) .nil) .nil) .nil) (.node (.node (.node (.leaf (.mult 4987 1501 (.negSucc 0) 0)) .nil) .nil) .nil)) (.node (.node (.node (.node (.leaf (.mult 24943 2628 (.ofNat 1) 0)) .nil) .nil) .nil) (.node (.node (.node (.leaf (.mult 24967 2634 (.ofNat 1) 0)) .nil) .nil) .nil))) (.node (.node (.node (.node (.node (.leaf (.trans [(377101, .ofNat 1)] 0)) .nil) .nil) .nil) (.node (.node (.node (.leaf (.mult 25349 2859 (.negSucc 0) 0)) .nil) .nil) .nil)) (.node (.node (.node (.node (.leaf (.mult 29147 1240 (.ofNat 1) 0)) .nil) .nil) .nil) (.node (.node (.node (.leaf (.mult 25121 2746 (.ofNat 1) 0)) .nil) .nil) .nil)))) (.node (.node (.node (.node (.node (.node (.leaf (.mult 5519 1320 (.ofNat 1) 0)) .nil) .nil) .nil) (.node (.node (.node (.leaf (.trans [(1321127917, .negSucc 0)] 0)) .nil) .nil) .nil)) (.node (.node (.node (.node (.leaf (.mult 38821 2690 (.ofNat 1) 0)) .nil) .nil) .nil) (.node (.node (.node (.leaf (.trans [(654300937, .negSucc 0)] 0)) .nil) .nil) .nil))) (.node (.node (.node (.node (.node (.leaf (.mult 15131 1200 (.negSucc 0) 0)) .nil) .nil) .nil) (.node (.node (.node (.leaf (.trans [(18681679, .negSucc 0)] 0)) .nil) .nil) .nil)) (.node (.node (.node (.node (.leaf (.mult 15269 1315 (.ofNat 1) 0)) .nil) .nil) .nil) (.node (.node (.node (.leaf (.mult 15991 2962 (.ofNat 1) 0)) (.leaf (.mult 15277 1325 (.ofNat 1) 0))) .nil) .nil))))) (.node (.node (.node (.node (.node (.node (.node (.leaf (.trans [(2227679, .negSucc 0)] 0)) .nil) .nil) .nil) (.node (.node (.node (.leaf (.mult 39089 2768 (.ofNat 1) 0)) .nil) .nil) .nil)) (.node (.node (.node (.node (.leaf (.mult 19079 2655 (.ofNat 1) 0)) .nil) .nil) .nil) (.node (.node (.node (.leaf (.mult 19087 2662 (.ofNat 1) 0)) .nil) .nil) .nil))) (.node (.node (.node (.node (.node (.leaf (.mult 9811 2718 (.ofNat 1) 0)) .nil) .nil) .nil) .nil) (.node (.node (.node (.node (.leaf (.trans [(7154867, .ofNat 2)] 1)) .nil) .nil) .nil) (.node (.node (.node (.leaf (.mult 18793 2558 (.ofNat 1) 0)) .nil) .nil) .nil)))) (.node (.node (.node (.node (.node (.node (.leaf (.mult 2591 1256 (.ofNat 1) 0)) .nil) .nil) .nil) (.node (.node (.node (.leaf (.mult 39217 2819 (.negSucc 1) 1)) .nil) .nil) .nil)) (.node (.node (.node (.node (.leaf (.mult 38923 2737 (.ofNat 1) 0)) .nil) .nil) .nil) .nil)) (.node (.node (.node (.node (.node (.leaf (.mult 15139 1208 (.ofNat 1) 0)) .nil) .nil) .nil) (.node (.node (.node (.leaf (.trans [(15615541, .ofNat 1)] 0)) .nil) .nil) .nil)) (.node (.node (.node (.node (.leaf (.mult 23099 1494 (.ofNat 1) 0)) .nil) .nil) .nil) (.node (.node (.node (.leaf (.mult 47059 4982 (.ofNat 1) 0)) .nil) .nil) .nil))))))

def jac293 : JTree := .node (.node (.node (.node (.node (.node (.node .nil (.node (.node (.leaf (.mult 46187 4875 (.ofNat 1) 0)) .nil) .nil)) (.node (.node (.node (.leaf (.trans [(2088521, .ofNat 1)] 0)) .nil) .nil) .nil)) (.node (.node (.node (.node (.leaf (.trans [(15149, .ofNat 1), (15161, .ofNat 1)] 0)) .nil) .nil) .nil) (.node (.node (.node (.leaf (.mult 31849 2952 (.ofNat 1) 0)) .nil) .nil) .nil))) (.node (.node (.node (.node (.node (.leaf (.trans [(1786273, .ofNat 1)] 0)) .nil) .nil) .nil) (.node (.node (.node (.leaf (.mult 31489 2823 (.negSucc 0) 0)) .nil) .nil) .nil)) (.node (.node (.node (.node (.leaf (.mult 38873 2719 (.ofNat 1) 0)) .nil) .nil) .nil) (.node (.node (.node (.leaf (.mult 18917 2580 (.ofNat 1) 0)) .nil) .nil) .nil)))) (.node (.node (.node (.node (.node (.node (.leaf (.trans [(18722707, .negSucc 0)] 0)) .nil) .nil) .nil) (.node (.node (.node (.leaf (.mult 7369 2776 (.ofNat 1) 0)) .nil) .nil) .nil)) (.node (.node (.node (.node (.leaf (.mult 19121 2668 (.ofNat 1) 0)) .nil) .nil) .nil) (.node (.node (.node (.leaf (.trans [(2371793, .ofNat 1)] 0)) .nil) .nil) .nil))) (.node (.node (.node (.node (.node (.leaf (.mult 38669 2529 (.negSucc 1) 0)) .nil) .nil) .nil) (.node (.node (.node (.leaf (.mult 39821 2932 (.ofNat 1) 0)) .nil) .nil) .nil)) (.node (.node (.node (.node (.leaf (.mult 6521 1249 (.ofNat 1) 0)) .nil) .nil) .nil) (.node (.node (.node (.leaf (.mult 13883 2961 (.ofNat 1) 0)) .nil) .nil) .nil))))) (.node (.node (.node (.node (.node (.node (.node (.leaf (.mult 1217 1206 (.ofNat 1) 0)) .nil) .nil) .nil) (.node (.node (.node (.leaf (.mult 3203 1580 (.negSucc 0) 0)) .nil) .nil) .nil)) (.node (.node (.node (.node (.leaf (.mult 24953 2633 (.ofNat 1) 0)) .nil) .nil) .nil) (.node (.node (.node (.leaf (.trans [(5396029, .ofNat 1)] 0)) .nil) .nil) .nil))) (.node (.node .nil (.node (.node (.node (.leaf (.mult 31817 2944 (.ofNat 1) 0)) .nil) .nil) .nil)) (.node (.node (.node (.node (.leaf (.mult 13249 1236 (.ofNat 2) 1)) .nil) .nil) .nil) (.node (.node (.node (.leaf (.trans [(4479539, .ofNat 1)] 0)) .nil) .nil) .nil)))) (.node (.node (.node .nil (.node (.node (.node (.leaf (.mult 25189 2782 (.ofNat 1) 0)) .nil) .nil) .nil)) (.node (.node (.node (.node (.leaf (.trans [(13105429, .ofNat 1)] 0)) .nil) .nil) .nil) (.node (.node (.node (.leaf (.trans [(1229913323, .negSucc 1)] 0)) .nil) .nil) .nil))) (.node (.node .nil (.node (.node (.node (.leaf (.mult 31799 2943 (.ofNat 1) 0)) .nil) .nil) .nil)) (.node (.node (.node (.node (.leaf (.mult 35831 1637 (.ofNat 1) 0)) .nil) .nil) .nil) (.node (.node (.node (.leaf (.mult 15971 2895 (.ofNat 1) 0)) .nil) .nil) .nil)))))) (.node (.node (.node (.node (.node .nil (.node (.node (.node (.leaf (.mult 35759 1628 (.ofNat 1) 0)) .nil) .nil) .nil)) (.node (.node (.node (.node (.leaf (.mult 15881 2619 (.ofNat 1) 0)) .nil) .nil) .nil) (.node (.node (.node (.leaf (.trans [(14050607, .ofNat 1)] 0)) .nil) .nil) .nil))) (.node (.node (.node (.node (.node (.leaf (.trans [(2099, .ofNat 1)] 0)) .nil) .nil) .nil) (.node (.node (.node (.leaf (.mult 31567 2840 (.negSucc 0) 0)) .nil) .nil) .nil)) (.node .nil (.node (.node (.node (.leaf (.mult 15823 2577 (.ofNat 1) 0)) .nil) .nil) .nil)))) (.node (.node (.node .nil (.node (.node (.node (.leaf (.mult 31337 2791 (.ofNat 1) 0)) .nil) .nil) .nil)) (.node .nil (.node (.node (.node (.leaf (.mult 31259 2704 (.ofNat 1) 0)) .nil) .nil) .nil))) (.node (.node (.node (.node (.node (.leaf (.mult 6857 2547 (.ofNat 1) 0)) .nil) .nil) .nil) (.node (.node (.node (.leaf (.mult 31769 2936 (.ofNat 1) 0)) .nil) .nil) .nil)) (.node (.node (.node (.node (.leaf (.mult 17467 1322 (.ofNat 1) 0)) .nil) .nil) .nil) (.node (.node (.node (.leaf (.mult 8699 2596 (.ofNat 1) 0)) .nil) .nil) .nil))))) (.node (.node (.node (.node .nil (.node (.node (.node (.leaf (.mult 39079 2762 (.ofNat 1) 0)) .nil) .nil) .nil)) (.node (.node (.node (.node (.leaf (.mult 19069 2647 (.ofNat 1) 0)) .nil) .nil) .nil) (.node (.node (.node (.leaf (.trans [(2754589, .ofNat 2)] 0)) .nil) .nil) .nil))) (.node (.node (.node (.node (.node (.leaf (.trans [(227417, .ofNat 1)] 0)) .nil) .nil) .nil) .nil) (.node (.node (.node (.node (.leaf (.mult 22811 1222 (.negSucc 1) 1)) .nil) .nil) .nil) (.node (.node (.node (.leaf (.mult 19379 2864 (.ofNat 1) 0)) .nil) .nil) .nil)))) (.node (.node (.node (.node (.node (.node (.leaf (.trans [(1218587, .ofNat 1)] 0)) .nil) .nil) .nil) (.node (.node (.node (.leaf (.mult 39383 2851 (.ofNat 1) 0)) .nil) .nil) .nil)) (.node (.node (.node (.node (.leaf (.trans [(4745933, .ofNat 1)] 0)) .nil) .nil) .nil) (.node (.node (.node (.leaf (.trans [(13908991, .ofNat 1)] 0)) .nil) .nil) .nil))) (.node (.node (.node (.node (.node (.leaf (.mult 15161 1215 (.ofNat 1) 0)) .nil) .nil) .nil) (.node (.node (.node (.leaf (.mult 19417 2920 (.ofNat 1) 0)) .nil) .nil) .nil)) (.node (.node (.node (.node (.leaf (.mult 12149 1251 (.ofNat 1) 0)) .nil) .nil) .nil) (.node (.node (.node (.leaf (.mult 47051 4980 (.ofNat 1) 0)) .nil) .nil) .nil))))))

def jac294 : JTree := .node (.node (.node (.node (.node (.node .nil (.node (.node (.node (.leaf (.mult 29473 1500 (.ofNat 1) 0)) .nil) .nil) .nil)) (.node (.node (.node (.node (.leaf (.mult 5779 2615 (.ofNat 1) 0)) .nil) .nil) .nil) (.node (.node (.node (.leaf (.mult 19009 2626 (.ofNat 1) 0)) .nil) .nil) .nil))) (.node (.node (.node (.node (.node (.leaf (.trans [(9829, .ofNat 1)] 0)) .nil) .nil) .nil) (.node (.node (.node (.leaf (.mult 39251 2832 (.ofNat 1) 0)) .nil) .nil) .nil)) (.node (.node (.node (.node (.leaf (.mult 38917 2725 (.ofNat 1) 0)) .nil) .nil) .nil) (.node (.node (.node (.leaf (.mult 12329 2526 (.negSucc 0) 0)) .nil) .nil) .nil)))) (.node (.node (.node (.node (.node (.node (.leaf (.mult 4099 1317 (.ofNat 1) 0)) .nil) .nil) .nil) (.node (.node (.node (.leaf (.mult 31379 2799 (.ofNat 1) 0)) .nil) .nil) .nil)) (.node (.node (.node (.node (.leaf (.mult 25037 2681 (.ofNat 1) 0)) .nil) .nil) .nil) (.node (.node (.node (.leaf (.trans [(818440123, .negSucc 0)] 0)) .nil) .nil) .nil))) (.node (.node (.node (.node (.node (.leaf (.trans [(2428039, .ofNat 1)] 0)) .nil) .nil) .nil) (.node (.node (.node (.leaf (.mult 31607 2878 (.ofNat 1) 0)) .nil) .nil) .nil)) (.node (.node (.node (.node (.leaf (.trans [(4372169, .negSucc 0)] 0)) .nil) .nil) .nil) (.node (.node (.node (.leaf (.mult 18919 2581 (.ofNat 1) 0)) .nil) .nil) .nil))))) (.node (.node (.node (.node .nil (.node (.node (.node (.leaf (.trans [(111368123, .ofNat 1)] 0)) .nil) .nil) .nil)) (.node (.node (.node (.node (.leaf (.mult 19051 2642 (.ofNat 1) 0)) .nil) .nil) .nil) (.node (.node (.node (.leaf (.trans [(3165119, .negSucc 0)] 0)) .nil) .nil) .nil))) (.node (.node (.node (.node (.node (.leaf (.mult 18757 2541 (.ofNat 1) 0)) .nil) .nil) .nil) .nil) (.node (.node (.node (.node (.leaf (.mult 29063 1223 (.ofNat 2) 1)) .nil) .nil) .nil) (.node (.node (.node (.leaf (.mult 39887 2958 (.ofNat 1) 0)) (.leaf (.trans [(1, .ofNat 1)] 0))) .nil) .nil)))) (.node (.node (.node (.node (.node (.node (.leaf (.mult 5323 2540 (.ofNat 1) 0)) .nil) .nil) .nil) (.node (.node (.node (.leaf (.mult 39181 2808 (.ofNat 1) 0)) .nil) .nil) .nil)) (.node (.node (.node (.node (.leaf (.mult 25097 2713 (.ofNat 1) 0)) .nil) .nil) .nil) (.node (.node (.node (.leaf (.trans [(3935693, .ofNat 1)] 0)) .nil) .nil) .nil))) (.node (.node (.node (.node (.node (.leaf (.mult 15149 1211 (.ofNat 1) 0)) .nil) .nil) .nil) (.node (.node (.node (.leaf (.mult 39791 2929 (.ofNat 1) 0)) .nil) .nil) .nil)) (.node (.node (.node (.node (.leaf (.mult 35837 1638 (.ofNat 1) 0)) .nil) .nil) .nil) (.node (.node (.node (.leaf (.mult 31153 2587 (.ofNat 1) 0)) (.leaf (.trans [(40031, .negSucc 0)] 0))) .nil) .nil)))))) (.node (.node (.node (.node (.node (.node (.node (.node (.leaf (.trans [(19128253, .ofNat 1)] 0)) .nil) .nil) .nil) (.node (.node (.node (.leaf (.mult 3701 1314 (.ofNat 1) 0)) .nil) .nil) .nil)) (.node (.node (.node (.node (.leaf (.mult 18973 2623 (.ofNat 1) 0)) .nil) .nil) .nil) .nil)) (.node (.node (.node (.node (.node (.leaf (.trans [(376223, .ofNat 1)] 0)) .nil) .nil) .nil) (.node (.node (.node (.leaf (.mult 19273 2854 (.negSucc 0) 0)) .nil) .nil) .nil)) (.node (.node (.node (.node (.leaf (.mult 29167 1245 (.ofNat 1) 0)) .nil) .nil) .nil) (.node (.node (.node (.leaf (.trans [(4489993, .ofNat 1)] 0)) .nil) .nil) .nil)))) (.node (.node (.node (.node (.node (.node (.leaf (.mult 5507 1294 (.ofNat 1) 0)) .nil) .nil) .nil) (.node (.node (.node (.leaf (.mult 39103 2774 (.ofNat 1) 0)) .nil) .nil) .nil)) (.node (.node (.node (.node (.leaf (.mult 13799 2703 (.ofNat 1) 0)) .nil) .nil) .nil) .nil)) (.node (.node .nil (.node (.node (.node (.leaf (.mult 39727 2916 (.ofNat 1) 0)) .nil) .nil) .nil)) (.node (.node (.node (.node (.leaf (.mult 15233 1284 (.ofNat 1) 0)) .nil) .nil) .nil) (.node (.node (.node (.leaf (.trans [(19403, .ofNat 1), (19417, .negSucc 0)] 0)) .nil) .nil) .nil))))) (.node (.node (.node (.node (.node (.node (.node (.leaf (.mult 9721 1279 (.negSucc 0) 0)) .nil) .nil) .nil) (.node (.node (.node (.leaf (.mult 25163 2766 (.ofNat 1) 0)) .nil) .nil) .nil)) (.node (.node (.node (.node (.leaf (.mult 31237 2653 (.ofNat 1) 0)) .nil) .nil) .nil) (.node (.node (.node (.leaf (.mult 24971 2667 (.ofNat 1) 0)) .nil) .nil) .nil))) (.node (.node (.node (.node (.node (.leaf (.mult 10259 2535 (.ofNat 1) 0)) .nil) .nil) .nil) .nil) (.node (.node (.node (.node (.leaf (.trans [(7152989, .ofNat 2)] 1)) .nil) .nil) .nil) (.node (.node (.node (.leaf (.mult 18869 2566 (.ofNat 1) 0)) .nil) .nil) .nil)))) (.node (.node (.node (.node (.node (.node (.leaf (.mult 2011 1257 (.ofNat 1) 0)) .nil) .nil) .nil) (.node (.node (.node (.leaf (.mult 39209 2816 (.ofNat 1) 0)) .nil) .nil) .nil)) (.node (.node (.node (.node (.leaf (.mult 8779 2743 (.ofNat 1) 0)) .nil) .nil) .nil) (.node (.node (.node (.leaf (.trans [(6214795397, .negSucc 1)] 0)) .nil) .nil) .nil))) (.node (.node (.node (.node (.node (.leaf (.mult 15241 1289 (.ofNat 1) 0)) .nil) .nil) .nil) (.node (.node (.node (.leaf (.mult 19433 2953 (.negSucc 0) 0)) .nil) .nil) .nil)) (.node (.node (.node (.node (.leaf (.trans [(43464367, .ofNat 1)] 0)) .nil) .nil) .nil) (.node (.node (.node (.leaf (.mult 35141 4934 (.ofNat 1) 0)) .nil) .nil) .nil))))))

def jac295 : JTree := .node (.node (.node (.node (.node (.node (.node .nil (.node (.node (.leaf (.mult 46199 4876 (.negSucc 0) 0)) .nil) .nil)) (.node (.node (.node (.leaf (.mult 29191 1262 (.ofNat 1) 0)) .nil) .nil) .nil)) (.node (.node (.node (.node (.leaf (.trans [(17359, .ofNat 1), (17377, .negSucc 0)] 0)) .nil) .nil) .nil) (.node (.node (.node (.leaf (.mult 19441 2954 (.ofNat 1) 0)) .nil) .nil) .nil))) (.node (.node (.node (.node (.node (.leaf (.trans [(1443749, .negSucc 1)] 0)) .nil) .nil) .nil) (.node (.node (.node (.leaf (.mult 39239 2828 (.ofNat 1) 0)) .nil) .nil) .nil)) (.node (.node (.node (.node (.leaf (.mult 31267 2720 (.ofNat 1) 0)) .nil) .nil) .nil) (.node (.node (.node (.leaf (.mult 24821 2533 (.ofNat 1) 0)) .nil) .nil) .nil)))) (.node (.node (.node (.node (.node (.node (.leaf (.trans [(19149841, .negSucc 0)] 0)) .nil) .nil) .nil) (.node (.node (.node (.leaf (.trans [(1844470501, .ofNat 2)] 1)) .nil) .nil) .nil)) (.node (.node (.node (.node (.leaf (.mult 24989 2674 (.ofNat 1) 0)) .nil) .nil) .nil) (.node (.node (.node (.leaf (.trans [(1176317, .ofNat 1)] 0)) .nil) .nil) .nil))) (.node (.node (.node (.node (.node (.leaf (.mult 7789 2716 (.ofNat 1) 0)) .nil) .nil) .nil) (.node (.node (.node (.leaf (.mult 39679 2908 (.ofNat 1) 0)) .nil) .nil) .nil)) (.node (.node (.node (.node (.leaf (.mult 13241 1234 (.ofNat 1) 0)) .nil) .nil) .nil) (.node (.node (.node (.leaf (.mult 24907 2595 (.ofNat 1) 0)) .nil) .nil) .nil))))) (.node (.node (.node (.node (.node (.node (.node (.leaf (.trans [(596891, .ofNat 2)] 1)) .nil) .nil) .nil) (.node (.node (.node (.leaf (.mult 11087 1641 (.negSucc 0) 0)) .nil) .nil) .nil)) (.node (.node (.node (.node (.leaf (.mult 15887 2635 (.ofNat 1) 0)) .nil) .nil) .nil) (.node (.node (.node (.leaf (.trans [(12930157, .ofNat 1)] 0)) .nil) .nil) .nil))) (.node (.node (.node (.node (.node (.leaf (.trans [(508201, .ofNat 1)] 0)) .nil) .nil) .nil) .nil) (.node (.node (.node (.node (.leaf (.mult 29173 1247 (.ofNat 2) 1)) .nil) .nil) .nil) (.node (.node (.node (.leaf (.trans [(1198667023, .ofNat 1)] 0)) .nil) .nil) .nil)))) (.node (.node (.node .nil (.node (.node (.node (.leaf (.mult 25237 2787 (.ofNat 1) 0)) .nil) .nil) .nil)) (.node (.node (.node (.node (.leaf (.mult 15907 2708 (.negSucc 0) 0)) .nil) .nil) .nil) (.node (.node (.node (.leaf (.trans [(3002929, .ofNat 1)] 0)) .nil) .nil) .nil))) (.node (.node (.node (.node (.node (.leaf (.mult 15199 1268 (.ofNat 1) 0)) .nil) .nil) .nil) (.node (.node (.node (.leaf (.mult 39733 2917 (.ofNat 1) 0)) .nil) .nil) .nil)) (.node (.node (.node (.node (.leaf (.trans [(284417387, .negSucc 0)] 0)) .nil) .nil) .nil) (.node (.node (.node (.leaf (.mult 15973 2896 (.ofNat 1) 0)) .nil) .nil) .nil)))))) (.node (.node (.node (.node (.node (.node (.node (.node (.leaf (.trans [(72851, .negSucc 0)] 0)) .nil) .nil) .nil) (.node (.node (.node (.leaf (.mult 23269 1548 (.ofNat 1) 0)) .nil) .nil) .nil)) (.node (.node (.node (.node (.leaf (.mult 11827 2610 (.ofNat 1) 0)) .nil) .nil) .nil) .nil)) (.node (.node (.node (.node (.node (.leaf (.mult 4241 1272 (.ofNat 1) 0)) .nil) .nil) .nil) (.node (.node (.node (.leaf (.mult 39341 2844 (.ofNat 1) 0)) .nil) .nil) .nil)) (.node .nil (.node (.node (.node (.leaf (.mult 24851 2565 (.ofNat 1) 0)) .nil) .nil) .nil)))) (.node (.node (.node .nil (.node (.node (.node (.leaf (.mult 39133 2793 (.ofNat 1) 0)) .nil) .nil) .nil)) (.node .nil (.node (.node (.node (.leaf (.trans [(6737909, .negSucc 0)] 0)) .nil) .nil) .nil))) (.node (.node (.node (.node (.node (.leaf (.trans [(9817, .ofNat 1), (2428039, .negSucc 0)] 0)) .nil) .nil) .nil) (.node (.node (.node (.leaf (.mult 31699 2915 (.ofNat 1) 0)) .nil) .nil) .nil)) (.node (.node (.node (.node (.leaf (.mult 17401 1297 (.ofNat 1) 0)) .nil) .nil) .nil) (.node (.node (.node (.leaf (.mult 8681 2549 (.ofNat 1) 0)) .nil) .nil) .nil))))) (.node (.node (.node (.node (.node (.node (.node (.leaf (.trans [(132683, .negSucc 0), (148009, .ofNat 1)] 0)) .nil) .nil) .nil) (.node (.node (.node (.leaf (.mult 39023 2758 (.ofNat 1) 0)) .nil) .nil) .nil)) (.node (.node (.node (.node (.leaf (.mult 15901 2664 (.ofNat 1) 0)) .nil) .nil) .nil) (.node (.node (.node (.leaf (.trans [(5420423, .ofNat 1)] 0)) .nil) .nil) .nil))) (.node (.node (.node (.node (.node (.leaf (.mult 7723 2523 (.ofNat 1) 0)) .nil) .nil) .nil) .nil) (.node (.node (.node (.node (.leaf (.mult 22817 1228 (.ofNat 2) 1)) .nil) .nil) .nil) (.node (.node (.node (.leaf (.mult 13877 2894 (.ofNat 1) 0)) .nil) .nil) .nil)))) (.node (.node (.node .nil (.node (.node (.node (.leaf (.mult 31391 2812 (.ofNat 1) 0)) .nil) .nil) .nil)) (.node (.node (.node (.node (.leaf (.mult 38933 2741 (.ofNat 1) 0)) .nil) .nil) .nil) (.node (.node (.node (.leaf (.mult 19309 2860 (.ofNat 1) 0)) .nil) .nil) .nil))) (.node (.node (.node (.node (.node (.leaf (.mult 17389 1288 (.ofNat 1) 0)) .nil) .nil) .nil) (.node (.node (.node (.leaf (.trans [(8661073, .ofNat 1)] 0)) .nil) .nil) .nil)) (.node .nil (.node (.node (.node (.leaf (.mult 39761 2924 (.ofNat 1) 0)) .nil) .nil) .nil))))))

def jac296 : JTree := .node (.node (.node (.node (.node (.node .nil (.node (.node (.node (.leaf (.mult 23497 1632 (.ofNat 1) 0)) .nil) .nil) .nil)) (.node (.node (.node (.node (.leaf (.mult 9787 2607 (.ofNat 1) 0)) .nil) .nil) .nil) (.node (.node (.node (.leaf (.trans [(14021047, .ofNat 1)] 0)) .nil) .nil) .nil))) (.node (.node .nil (.node (.node (.node (.leaf (.mult 31541 2835 (.ofNat 1) 0)) .nil) .nil) .nil)) (.node (.node (.node (.node (.leaf (.mult 11279 2717 (.ofNat 1) 0)) .nil) .nil) .nil) (.node (.node (.node (.leaf (.mult 15859 2579 (.ofNat 1) 0)) .nil) .nil) .nil)))) (.node (.node (.node (.node (.node (.node (.leaf (.mult 4093 1316 (.ofNat 2) 0)) .nil) .nil) .nil) (.node (.node (.node (.leaf (.mult 39157 2801 (.ofNat 1) 0)) .nil) .nil) .nil)) (.node (.node (.node (.node (.leaf (.mult 8741 2694 (.ofNat 1) 0)) .nil) .nil) .nil) (.node (.node (.node (.leaf (.trans [(8267011, .ofNat 1)] 0)) .nil) .nil) .nil))) (.node (.node (.node (.node (.node (.leaf (.trans [(2069321, .ofNat 1)] 0)) .nil) .nil) .nil) (.node (.node (.node (.leaf (.mult 39509 2880 (.ofNat 1) 0)) .nil) .nil) .nil)) (.node (.node (.node (.node (.leaf (.mult 6803 1252 (.ofNat 1) 0)) .nil) .nil) .nil) (.node (.node (.node (.leaf (.mult 18959 2585 (.ofNat 1) 0)) .nil) .nil) .nil))))) (.node (.node (.node (.node (.node (.node (.node (.leaf (.mult 919 1285 (.negSucc 1) 0)) .nil) .nil) .nil) (.node (.node (.node (.leaf (.mult 38993 2754 (.negSucc 0) 0)) .nil) .nil) .nil)) (.node (.node (.node (.node (.leaf (.mult 12373 2643 (.ofNat 1) 0)) .nil) .nil) .nil) (.node (.node (.node (.leaf (.trans [(1397593, .ofNat 1)] 0)) .nil) .nil) .nil))) (.node .nil (.node (.node (.node (.node (.leaf (.trans [(9124889, .negSucc 1)] 1)) .nil) .nil) .nil) (.node (.node (.node (.leaf (.mult 39581 2893 (.ofNat 1) 0)) .nil) .nil) .nil)))) (.node (.node (.node .nil (.node (.node (.node (.leaf (.mult 39397 2852 (.ofNat 1) 0)) .nil) .nil) .nil)) (.node (.node (.node (.node (.leaf (.mult 13841 2729 (.ofNat 1) 0)) .nil) .nil) .nil) (.node (.node (.node (.leaf (.mult 19207 2699 (.ofNat 1) 0)) .nil) .nil) .nil))) (.node (.node (.node (.node (.node (.leaf (.trans [(540959, .negSucc 0)] 0)) .nil) .nil) .nil) (.node (.node (.node (.leaf (.mult 39667 2905 (.ofNat 1) 0)) .nil) .nil) .nil)) (.node (.node (.node (.node (.leaf (.mult 29207 1282 (.ofNat 1) 0)) .nil) .nil) .nil) (.node (.node (.node (.leaf (.mult 34871 4868 (.ofNat 1) 0)) .nil) .nil) .nil)))))) (.node (.node (.node (.node (.node (.node (.node (.node (.leaf (.trans [(71189, .negSucc 0)] 0)) .nil) .nil) .nil) (.node (.node (.node (.leaf (.mult 4973 1498 (.negSucc 0) 0)) .nil) .nil) .nil)) (.node (.node (.node (.node (.leaf (.mult 19013 2629 (.ofNat 1) 0)) .nil) .nil) .nil) (.node (.node (.node (.leaf (.mult 19031 2630 (.ofNat 1) 0)) .nil) .nil) .nil))) (.node (.node (.node (.node (.node (.leaf (.mult 4271 2553 (.ofNat 1) 0)) .nil) .nil) .nil) .nil) (.node (.node (.node (.node (.leaf (.mult 29059 1220 (.ofNat 1) 0)) .nil) .nil) .nil) (.node (.node (.node (.leaf (.mult 31151 2583 (.ofNat 1) 0)) .nil) .nil) .nil)))) (.node (.node (.node (.node (.node (.node (.leaf (.mult 6547 1293 (.ofNat 1) 0)) .nil) .nil) .nil) (.node (.node (.node (.leaf (.mult 31327 2780 (.ofNat 1) 0)) .nil) .nil) .nil)) (.node (.node (.node (.node (.leaf (.mult 8737 2692 (.ofNat 1) 0)) .nil) .nil) .nil) (.node (.node (.node (.leaf (.trans [(5509261, .ofNat 1)] 0)) .nil) .nil) .nil))) (.node (.node (.node (.node (.node (.leaf (.mult 17419 1300 (.negSucc 0) 0)) .nil) .nil) .nil) (.node (.node (.node (.leaf (.mult 39541 2884 (.ofNat 1) 0)) .nil) .nil) .nil)) (.node (.node (.node (.node (.leaf (.mult 35797 1633 (.ofNat 1) 0)) .nil) .nil) .nil) (.node (.node (.node (.leaf (.mult 16007 2973 (.ofNat 1) 0)) (.leaf (.mult 15497 1502 (.ofNat 1) 0))) .nil) .nil))))) (.node (.node (.node (.node (.node (.node (.node (.leaf (.mult 9697 1199 (.ofNat 1) 0)) .nil) .nil) .nil) (.node (.node (.node (.leaf (.mult 31321 2770 (.ofNat 1) 0)) .nil) .nil) .nil)) (.node (.node (.node (.node (.leaf (.mult 19073 2652 (.ofNat 1) 0)) .nil) .nil) .nil) (.node (.node (.node (.leaf (.trans [(22746481, .ofNat 1)] 0)) .nil) .nil) .nil))) (.node (.node (.node (.node (.node (.leaf (.mult 7741 2542 (.ofNat 1) 0)) .nil) .nil) .nil) (.node (.node (.node (.leaf (.mult 39499 2875 (.ofNat 1) 0)) .nil) .nil) .nil)) (.node .nil (.node (.node (.node (.leaf (.mult 38729 2597 (.ofNat 1) 0)) .nil) .nil) .nil)))) (.node (.node (.node (.node (.node (.node (.leaf (.trans [(232343, .ofNat 1)] 0)) .nil) .nil) .nil) (.node (.node (.node (.leaf (.mult 15919 2820 (.ofNat 1) 0)) .nil) .nil) .nil)) (.node (.node (.node (.node (.leaf (.trans [(5170367, .ofNat 1)] 0)) .nil) .nil) .nil) (.node (.node (.node (.leaf (.mult 38723 2592 (.ofNat 1) 0)) .nil) .nil) .nil))) (.node (.node (.node (.node (.node (.leaf (.trans [(15241, .ofNat 1), (314519, .ofNat 1)] 0)) .nil) .nil) .nil) (.node (.node (.node (.leaf (.trans [(1675337, .negSucc 1)] 0)) .nil) .nil) .nil)) (.node (.node (.node (.node (.leaf (.mult 23251 1547 (.ofNat 1) 0)) .nil) .nil) .nil) (.node (.node (.node (.leaf (.mult 46181 4871 (.ofNat 1) 0)) .nil) .nil) .nil))))))

def jac297 : JTree := .node (.node (.node (.node (.node (.node (.node .nil (.node (.node (.leaf (.mult 46649 4940 (.ofNat 1) 0)) .nil) .nil)) (.node (.node (.node (.leaf (.mult 23537 1645 (.negSucc 0) 0)) .nil) .nil) .nil)) .nil) (.node (.node .nil (.node (.node (.node (.leaf (.mult 40577 3197 (.ofNat 1) 0)) .nil) .nil) .nil)) (.node (.node (.node (.node (.leaf (.mult 7829 3117 (.ofNat 1) 0)) .nil) .nil) .nil) .nil))) (.node (.node (.node (.node (.node (.node (.leaf (.trans [(53191513, .negSucc 0), (103742803, .negSucc 0)] 0)) .nil) .nil) .nil) (.node (.node (.node (.leaf (.mult 25717 3150 (.ofNat 1) 0)) .nil) .nil) .nil)) (.node (.node (.node (.node (.leaf (.mult 10301 3048 (.ofNat 1) 0)) .nil) .nil) .nil) (.node (.node (.node (.leaf (.trans [(8473891, .ofNat 1)] 0)) .nil) .nil) .nil))) (.node (.node .nil (.node (.node (.node (.leaf (.mult 40841 3246 (.ofNat 1) 0)) .nil) .nil) .nil)) (.node .nil (.node (.node (.node (.leaf (.mult 13903 2986 (.ofNat 1) 0)) .nil) .nil) .nil))))) (.node (.node (.node (.node .nil (.node (.node (.node (.leaf (.mult 2957 1554 (.negSucc 0) 0)) .nil) .nil) .nil)) (.node (.node (.node (.node (.leaf (.mult 31991 3028 (.ofNat 1) 0)) .nil) .nil) .nil) (.node (.node (.node (.leaf (.mult 32051 3057 (.ofNat 1) 0)) .nil) .nil) .nil))) (.node (.node .nil (.node (.node (.node (.leaf (.mult 25903 3242 (.ofNat 1) 0)) .nil) .nil) .nil)) (.node .nil (.node (.node (.node (.leaf (.mult 31891 2996 (.ofNat 1) 0)) .nil) .nil) .nil)))) (.node (.node (.node .nil (.node (.node (.node (.leaf (.trans [(1106386459, .ofNat 1)] 0)) .nil) .nil) .nil)) (.node (.node (.node (.node (.leaf (.trans [(905563, .ofNat 1)] 0)) .nil) .nil) .nil) .nil)) (.node (.node .nil (.node (.node (.node (.leaf (.mult 32363 3258 (.ofNat 1) 0)) .nil) .nil) .nil)) (.node .nil (.node (.node (.node (.leaf (.mult 41233 3328 (.ofNat 1) 0)) (.leaf (.trans [(15511, .ofNat 1)] 0))) .nil) .nil)))))) (.node (.node (.node (.node .nil (.node (.node (.node (.node (.leaf (.mult 11833 3008 (.ofNat 1) 0)) .nil) .nil) .nil) (.node (.node (.node (.leaf (.trans [(5355533, .ofNat 1)] 0)) .nil) .nil) .nil))) (.node (.node .nil (.node (.node (.node (.leaf (.mult 32303 3213 (.ofNat 1) 0)) .nil) .nil) .nil)) (.node (.node (.node (.node (.leaf (.mult 13931 3105 (.ofNat 1) 0)) .nil) .nil) .nil) .nil))) (.node (.node (.node .nil (.node (.node (.node (.leaf (.trans [(25841, .ofNat 1)] 0)) .nil) .nil) .nil)) (.node (.node (.node (.node (.leaf (.mult 8923 3084 (.ofNat 1) 0)) .nil) .nil) .nil) (.node (.node (.node (.leaf (.mult 19717 3075 (.ofNat 1) 0)) .nil) .nil) .nil))) (.node (.node .nil (.node (.node (.node (.leaf (.mult 32327 3250 (.ofNat 1) 0)) .nil) .nil) .nil)) (.node .nil (.node (.node (.node (.leaf (.mult 40949 3270 (.ofNat 1) 0)) .nil) .nil) .nil))))) (.node (.node (.node (.node .nil (.node (.node (.node (.leaf (.mult 19753 3134 (.ofNat 1) 0)) .nil) .nil) .nil)) (.node (.node (.node (.node (.leaf (.mult 7039 3039 (.ofNat 1) 0)) .nil) .nil) .nil) (.node (.node (.node (.leaf (.trans [(14416847, .ofNat 1)] 0)) .nil) .nil) .nil))) (.node (.node .nil (.node (.node (.node (.leaf (.mult 40819 3241 (.ofNat 1) 0)) .nil) .nil) .nil)) (.node .nil (.node (.node (.node (.leaf (.mult 19819 3234 (.ofNat 1) 0)) .nil) .nil) .nil)))) (.node (.node (.node .nil (.node (.node (.node (.leaf (.mult 40771 3226 (.ofNat 1) 0)) .nil) .nil) .nil)) (.node (.node (.node (.node (.leaf (.mult 16067 3111 (.ofNat 1) 0)) .nil) .nil) .nil) (.node (.node (.node (.leaf (.mult 41183 3311 (.ofNat 1) 0)) .nil) .nil) .nil))) (.node (.node .nil (.node (.node (.node (.leaf (.mult 25931 3276 (.ofNat 1) 0)) .nil) .nil) .nil)) (.node .nil (.node (.node (.node (.leaf (.mult 46219 4879 (.ofNat 1) 0)) .nil) .nil) .nil))))))

def jac298 : JTree := .node (.node (.node (.node (.node .nil (.node (.node (.node (.node (.leaf (.trans [(42202889, .negSucc 0)] 0)) .nil) .nil) .nil) (.node (.node (.node (.leaf (.mult 31973 3014 (.ofNat 1) 0)) .nil) .nil) .nil))) (.node (.node .nil (.node (.node (.node (.leaf (.mult 40637 3209 (.ofNat 1) 0)) .nil) .nil) .nil)) (.node (.node (.node (.node (.leaf (.mult 40193 3104 (.ofNat 1) 0)) .nil) .nil) .nil) (.node (.node (.node (.leaf (.mult 41179 3309 (.ofNat 1) 0)) .nil) .nil) .nil)))) (.node (.node (.node .nil (.node (.node (.node (.leaf (.mult 32173 3177 (.ofNat 1) 0)) .nil) .nil) .nil)) (.node (.node (.node (.node (.leaf (.mult 25583 3070 (.ofNat 1) 0)) .nil) .nil) .nil) .nil)) (.node (.node .nil (.node (.node (.node (.leaf (.mult 32353 3252 (.ofNat 1) 0)) .nil) .nil) .nil)) (.node (.node (.node (.node (.leaf (.trans [(3340559, .negSucc 0)] 0)) .nil) .nil) .nil) (.node (.node (.node (.leaf (.mult 19471 2988 (.ofNat 1) 0)) .nil) .nil) .nil))))) (.node (.node (.node (.node .nil (.node (.node (.node (.leaf (.mult 40289 3132 (.negSucc 0) 0)) .nil) .nil) .nil)) (.node (.node (.node (.node (.leaf (.mult 5641 3033 (.negSucc 0) 0)) .nil) .nil) .nil) (.node (.node (.node (.leaf (.trans [(6617609, .ofNat 1)] 0)) .nil) .nil) .nil))) (.node .nil (.node .nil (.node (.node (.node (.leaf (.mult 19751 3131 (.ofNat 1) 0)) (.leaf (.trans [(1, .ofNat 1)] 0))) .nil) .nil)))) (.node (.node (.node .nil (.node (.node (.node (.leaf (.mult 19763 3185 (.ofNat 1) 0)) .nil) .nil) .nil)) (.node (.node (.node (.node (.leaf (.mult 40231 3110 (.ofNat 1) 0)) .nil) .nil) .nil) (.node (.node (.node (.leaf (.trans [(7333009, .ofNat 1)] 0)) .nil) .nil) .nil))) (.node (.node .nil (.node (.node (.node (.leaf (.mult 41141 3299 (.ofNat 1) 0)) .nil) .nil) .nil)) (.node (.node (.node (.node (.leaf (.mult 22961 1332 (.ofNat 1) 0)) .nil) .nil) .nil) (.node (.node (.node (.leaf (.mult 31957 3005 (.ofNat 1) 0)) (.leaf (.trans [(46271, .ofNat 1)] 0))) .nil) .nil)))))) (.node (.node (.node (.node (.node .nil (.node (.node (.node (.leaf (.mult 3733 1337 (.ofNat 1) 0)) .nil) .nil) .nil)) (.node (.node (.node (.node (.leaf (.mult 25463 3024 (.ofNat 1) 0)) .nil) .nil) .nil) (.node (.node (.node (.leaf (.trans [(18823069, .ofNat 1)] 0)) .nil) .nil) .nil))) (.node (.node .nil (.node (.node (.node (.leaf (.mult 19813 3233 (.ofNat 1) 0)) .nil) .nil) .nil)) .nil)) (.node (.node (.node .nil (.node (.node (.node (.leaf (.trans [(141032201, .negSucc 0)] 0)) .nil) .nil) .nil)) (.node (.node (.node (.node (.leaf (.mult 40151 3080 (.ofNat 1) 0)) .nil) .nil) .nil) .nil)) (.node (.node .nil (.node (.node (.node (.leaf (.mult 41047 3284 (.ofNat 1) 0)) .nil) .nil) .nil)) (.node .nil (.node (.node (.node (.leaf (.trans [(19937, .ofNat 1)] 0)) .nil) .nil) .nil))))) (.node (.node (.node (.node (.node (.node (.node (.leaf (.mult 7247 1326 (.ofNat 1) 0)) .nil) .nil) .nil) (.node (.node (.node (.leaf (.mult 25703 3146 (.ofNat 1) 0)) .nil) .nil) .nil)) (.node (.node (.node (.node (.leaf (.mult 40111 3045 (.negSucc 0) 0)) .nil) .nil) .nil) (.node (.node (.node (.leaf (.mult 19697 3062 (.ofNat 1) 0)) .nil) .nil) .nil))) (.node (.node .nil (.node (.node (.node (.leaf (.mult 41039 3280 (.ofNat 1) 0)) .nil) .nil) .nil)) (.node .nil (.node (.node (.node (.leaf (.trans [(17111621, .negSucc 0)] 0)) .nil) .nil) .nil)))) (.node (.node (.node .nil (.node (.node (.node (.leaf (.mult 32203 3193 (.ofNat 1) 0)) .nil) .nil) .nil)) (.node (.node (.node (.node (.leaf (.mult 11329 3119 (.ofNat 1) 0)) .nil) .nil) .nil) .nil)) (.node .nil (.node .nil (.node (.node (.node (.leaf (.mult 46663 4942 (.ofNat 1) 0)) .nil) .nil) .nil))))))

def jac299 : JTree := .node (.node jac297 (.node (.node (.node (.node (.node (.node (.node (.node (.node (.leaf (.trans [(523, .ofNat 1)] 0)) .nil) .nil) (.node (.node (.leaf (.mult 46681 4944 (.negSucc 0) 0)) .nil) .nil)) .nil) .nil) (.node (.node .nil (.node (.node (.node (.leaf (.mult 32257 3205 (.ofNat 1) 0)) .nil) .nil) .nil)) (.node (.node (.node (.node (.leaf (.mult 25639 3098 (.ofNat 1) 0)) .nil) .nil) .nil) .nil))) (.node (.node (.node .nil (.node (.node (.node (.leaf (.mult 5347 3156 (.ofNat 1) 0)) .nil) .nil) .nil)) (.node (.node (.node (.node (.leaf (.mult 12409 3067 (.ofNat 1) 0)) .nil) .nil) .nil) .nil)) (.node .nil (.node .nil (.node (.node (.node (.leaf (.mult 41221 3322 (.ofNat 1) 0)) .nil) .nil) .nil))))) (.node (.node (.node .nil (.node (.node (.node (.node (.leaf (.trans [(45229391, .negSucc 0)] 0)) .nil) .nil) .nil) .nil)) .nil) (.node (.node (.node .nil (.node (.node (.node (.leaf (.mult 40483 3166 (.ofNat 1) 0)) .nil) .nil) .nil)) (.node .nil (.node (.node (.node (.leaf (.trans [(5595077, .ofNat 1)] 0)) .nil) .nil) .nil))) (.node (.node .nil (.node (.node (.node (.leaf (.mult 40823 3243 (.ofNat 1) 0)) .nil) .nil) .nil)) (.node .nil (.node (.node (.node (.leaf (.mult 41231 3326 (.ofNat 1) 0)) (.leaf (.mult 2399 1651 (.ofNat 1) 0))) .nil) .nil)))))) (.node (.node (.node (.node (.node .nil (.node (.node (.node (.leaf (.mult 23327 1583 (.ofNat 1) 0)) .nil) .nil) .nil)) (.node (.node (.node (.node (.leaf (.mult 11311 3010 (.ofNat 1) 0)) .nil) .nil) .nil) (.node (.node (.node (.leaf (.trans [(14326531, .ofNat 1)] 0)) .nil) .nil) .nil))) (.node (.node .nil (.node (.node (.node (.leaf (.mult 16087 3221 (.ofNat 1) 0)) .nil) .nil) .nil)) (.node .nil (.node (.node (.node (.leaf (.mult 25439 2997 (.ofNat 1) 0)) .nil) .nil) .nil)))) (.node (.node (.node .nil (.node (.node (.node (.leaf (.mult 25799 3172 (.ofNat 1) 0)) .nil) .nil) .nil)) (.node (.node (.node (.node (.leaf (.mult 40163 3088 (.ofNat 1) 0)) .nil) .nil) .nil) .nil)) (.node (.node .nil (.node (.node (.node (.leaf (.mult 32369 3281 (.ofNat 1) 0)) .nil) .nil) .nil)) (.node .nil (.node (.node (.node (.leaf (.mult 19937 3310 (.ofNat 1) 0)) .nil) .nil) .nil))))) (.node (.node (.node (.node .nil (.node (.node (.node (.leaf (.mult 19759 3142 (.ofNat 1) 0)) .nil) .nil) .nil)) (.node (.node (.node (.node (.leaf (.mult 16061 3054 (.ofNat 1) 0)) .nil) .nil) .nil) .nil)) (.node .nil (.node .nil (.node (.node (.node (.leaf (.mult 19867 3240 (.ofNat 1) 0)) .nil) .nil) .nil)))) (.node (.node (.node .nil (.node (.node (.node (.leaf (.mult 32189 3189 (.ofNat 1) 0)) .nil) .nil) .nil)) (.node (.node (.node (.node (.leaf (.trans [(3251987, .ofNat 1)] 0)) .nil) .nil) .nil) .nil)) (.node .nil (.node (.node (.node (.node (.leaf (.mult 22943 1330 (.negSucc 0) 0)) .nil) .nil) .nil) (.node (.node (.node (.leaf (.mult 34949 4882 (.ofNat 1) 0)) .nil) .nil) .nil)))))))) (.node (.node (.node (.node (.node (.node (.node (.node .nil (.node (.node (.leaf (.mult 46679 4943 (.ofNat 1) 0)) .nil) .nil)) .nil) .nil) (.node (.node .nil (.node (.node (.node (.leaf (.mult 16073 3201 (.ofNat 1) 0)) .nil) .nil) .nil)) (.node (.node (.node (.node (.leaf (.trans [(18255487, .ofNat 1)] 0)) .nil) .nil) .nil) .nil))) (.node (.node (.node .nil (.node (.node (.node (.leaf (.mult 8941 3153 (.ofNat 1) 0)) .nil) .nil) .nil)) (.node (.node (.node (.node (.leaf (.mult 25579 3066 (.ofNat 1) 0)) .nil) .nil) .nil) .nil)) (.node (.node .nil (.node (.node (.node (.leaf (.mult 41149 3302 (.ofNat 1) 0)) .nil) .nil) .nil)) (.node .nil (.node (.node (.node (.leaf (.mult 13901 2984 (.ofNat 1) 0)) .nil) .nil) .nil))))) (.node (.node (.node (.node .nil (.node (.node (.node (.leaf (.mult 3221 1585 (.ofNat 1) 0)) .nil) .nil) .nil)) (.node (.node (.node (.node (.leaf (.mult 6287 3050 (.ofNat 1) 0)) .nil) .nil) .nil) .nil)) (.node (.node .nil (.node (.node (.node (.leaf (.trans [(1774837, .ofNat 1)] 0)) .nil) .nil) .nil)) .nil)) (.node (.node (.node .nil (.node (.node (.node (.leaf (.mult 25747 3162 (.ofNat 1) 0)) .nil) .nil) .nil)) (.node (.node (.node (.node (.leaf (.trans [(323179, .ofNat 1)] 0)) .nil) .nil) .nil) (.node (.node (.node (.leaf (.trans [(17526539, .ofNat 1)] 0)) .nil) .nil) .nil))) (.node (.node .nil (.node (.node (.node (.leaf (.trans [(3245933, .ofNat 1)] 0)) .nil) .nil) .nil)) (.node .nil (.node (.node (.node (.leaf (.mult 41227 3325 (.ofNat 1) 0)) (.leaf (.mult 607 1586 (.ofNat 1) 0))) .nil) .nil)))))) (.node (.node (.node (.node (.node .nil (.node (.node (.node (.leaf (.mult 23531 1644 (.ofNat 1) 0)) .nil) .nil) .nil)) .nil) (.node (.node .nil (.node (.node (.node (.leaf (.mult 40697 3217 (.ofNat 1) 0)) .nil) .nil) .nil)) .nil)) (.node (.node (.node .nil (.node (.node (.node (.leaf (.mult 32143 3170 (.ofNat 1) 0)) .nil) .nil) .nil)) (.node (.node (.node (.node (.leaf (.mult 40123 3076 (.ofNat 1) 0)) .nil) .nil) .nil) (.node (.node (.node (.leaf (.mult 32057 3085 (.ofNat 1) 0)) .nil) .nil) .nil))) (.node (.node .nil (.node (.node (.node (.leaf (.trans [(2224427, .ofNat 1)] 0)) .nil) .nil) .nil)) (.node .nil (.node (.node (.node (.leaf (.mult 19891 3271 (.ofNat 1) 0)) .nil) .nil) .nil))))) (.node (.node (.node (.node .nil (.node (.node (.node (.leaf (.mult 40361 3138 (.negSucc 0) 0)) .nil) .nil) .nil)) (.node (.node (.node (.node (.leaf (.mult 7039 3039 (.negSucc 0) 0)) .nil) .nil) .nil) .nil)) (.node (.node .nil (.node (.node (.node (.leaf (.mult 40961 3272 (.ofNat 1) 0)) .nil) .nil) .nil)) (.node .nil (.node (.node (.node (.leaf (.mult 40277 3129 (.ofNat 1) 0)) .nil) .nil) .nil)))) (.node (.node (.node .nil (.node (.node (.node (.leaf (.mult 19793 3229 (.ofNat 1) 0)) .nil) .nil) .nil)) (.node (.node (.node (.node (.leaf (.mult 5113 3114 (.ofNat 1) 0)) .nil) .nil) .nil) .nil)) (.node .nil (.node .nil (.node (.node (.node (.leaf (.mult 32413 3292 (.ofNat 1) 0)) .nil) .nil) .nil))))))) jac298)

def jac300 : JTree := .node (.node (.node (.node (.node (.node (.node .nil (.node (.node (.leaf (.mult 41177 3308 (.ofNat 1) 0)) .nil) .nil)) .nil) .nil) (.node (.node .nil (.node (.node (.node (.leaf (.mult 40583 3200 (.ofNat 1) 0)) .nil) .nil) .nil)) (.node (.node (.node (.node (.leaf (.mult 11321 3113 (.ofNat 1) 0)) .nil) .nil) .nil) .nil))) (.node (.node (.node .nil (.node (.node (.node (.leaf (.mult 40433 3152 (.ofNat 1) 0)) .nil) .nil) .nil)) (.node (.node (.node (.node (.leaf (.mult 19699 3068 (.ofNat 1) 0)) .nil) .nil) .nil) .nil)) (.node (.node .nil (.node (.node (.node (.leaf (.mult 41161 3303 (.ofNat 1) 0)) .nil) .nil) .nil)) (.node .nil (.node (.node (.node (.leaf (.mult 41117 3296 (.ofNat 1) 0)) .nil) .nil) .nil))))) (.node (.node (.node (.node .nil (.node (.node (.node (.leaf (.mult 2963 1556 (.ofNat 1) 0)) .nil) .nil) .nil)) (.node (.node (.node (.node (.leaf (.mult 32003 3029 (.ofNat 1) 0)) .nil) .nil) .nil) (.node (.node (.node (.leaf (.trans [(11179117, .ofNat 1)] 0)) .nil) .nil) .nil))) (.node (.node .nil (.node (.node (.node (.leaf (.trans [(4183709, .ofNat 1)] 0)) .nil) .nil) .nil)) .nil)) (.node (.node (.node .nil (.node (.node (.node (.leaf (.trans [(138042119, .negSucc 0)] 0)) .nil) .nil) .nil)) .nil) (.node (.node .nil (.node (.node (.node (.leaf (.trans [(2659823, .ofNat 1)] 0)) .nil) .nil) .nil)) (.node (.node (.node (.node (.leaf (.trans [(251670421, .negSucc 0)] 0)) .nil) .nil) .nil) (.node (.node (.node (.leaf (.mult 41213 3321 (.ofNat 1) 0)) (.leaf (.trans [(1103, .ofNat 1)] 0))) .nil) .nil)))))) (.node (.node (.node (.node .nil (.node (.node (.node (.node (.leaf (.mult 16033 3015 (.ofNat 1) 0)) .nil) .nil) .nil) (.node (.node (.node (.leaf (.trans [(34244793691, .ofNat 1), (37645967291, .negSucc 0)] 0)) .nil) .nil) .nil))) (.node (.node .nil (.node (.node (.node (.leaf (.mult 32309 3215 (.ofNat 1) 0)) .nil) .nil) .nil)) .nil)) (.node (.node (.node .nil (.node (.node (.node (.leaf (.mult 40499 3180 (.ofNat 1) 0)) .nil) .nil) .nil)) (.node .nil (.node (.node (.node (.leaf (.mult 12413 3069 (.ofNat 1) 0)) .nil) .nil) .nil))) (.node (.node .nil (.node (.node (.node (.leaf (.mult 32429 3304 (.ofNat 1) 0)) .nil) .nil) .nil)) (.node .nil (.node (.node (.node (.leaf (.mult 8831 2993 (.ofNat 1) 0)) .nil) .nil) .nil))))) (.node (.node (.node (.node .nil (.node (.node (.node (.leaf (.mult 40423 3140 (.ofNat 1) 0)) .nil) .nil) .nil)) (.node (.node (.node (.node (.leaf (.mult 7823 3040 (.negSucc 0) 0)) .nil) .nil) .nil) .nil)) (.node .nil (.node .nil (.node (.node (.node (.leaf (.mult 19841 3236 (.ofNat 1) 0)) .nil) .nil) .nil)))) (.node (.node (.node .nil (.node (.node (.node (.leaf (.mult 40759 3224 (.ofNat 1) 0)) .nil) .nil) .nil)) (.node (.node (.node (.node (.leaf (.trans [(3725429, .ofNat 1)] 0)) .nil) .nil) .nil) (.node (.node (.node (.leaf (.mult 40813 3231 (.ofNat 1) 0)) .nil) .nil) .nil))) (.node (.node .nil (.node (.node (.node (.leaf (.mult 19927 3307 (.ofNat 1) 0)) .nil) .nil) .nil)) (.node .nil (.node (.node (.node (.leaf (.mult 46643 4939 (.ofNat 1) 0)) .nil) .nil) .nil))))))

def jac301 : JTree := .node (.node (.node (.node (.node .nil (.node (.node (.node (.node (.leaf (.mult 4783 3011 (.ofNat 1) 0)) .nil) .nil) .nil) (.node (.node (.node (.leaf (.mult 25457 3019 (.ofNat 1) 0)) .nil) .nil) .nil))) (.node (.node .nil (.node (.node (.node (.leaf (.mult 40609 3206 (.ofNat 1) 0)) .nil) .nil) .nil)) (.node (.node (.node (.node (.leaf (.mult 40189 3103 (.ofNat 1) 0)) .nil) .nil) .nil) .nil))) (.node (.node (.node .nil (.node (.node (.node (.leaf (.mult 40507 3181 (.ofNat 1) 0)) .nil) .nil) .nil)) (.node (.node (.node (.node (.leaf (.mult 25589 3071 (.ofNat 1) 0)) .nil) .nil) .nil) (.node (.node (.node (.leaf (.trans [(10518007, .ofNat 1)] 0)) .nil) .nil) .nil))) (.node .nil (.node (.node (.node (.node (.leaf (.trans [(793913, .ofNat 1)] 0)) .nil) .nil) .nil) (.node (.node (.node (.leaf (.mult 19483 2991 (.ofNat 1) 0)) .nil) .nil) .nil))))) (.node (.node (.node (.node .nil (.node (.node (.node (.leaf (.trans [(87762401, .ofNat 1)] 0)) .nil) .nil) .nil)) (.node (.node (.node (.node (.leaf (.mult 40099 3037 (.negSucc 0) 0)) .nil) .nil) .nil) .nil)) (.node .nil (.node .nil (.node (.node (.node (.leaf (.mult 25667 3127 (.ofNat 1) 0)) .nil) .nil) .nil)))) (.node (.node (.node .nil (.node (.node (.node (.leaf (.mult 25867 3183 (.ofNat 1) 0)) .nil) .nil) .nil)) (.node (.node (.node (.node (.leaf (.trans [(2977613, .ofNat 1)] 0)) .nil) .nil) .nil) .nil)) (.node (.node .nil (.node (.node (.node (.leaf (.mult 25913 3245 (.ofNat 1) 0)) .nil) .nil) .nil)) (.node (.node (.node (.node (.leaf (.trans [(845546461, .negSucc 0)] 0)) .nil) .nil) .nil) (.node (.node (.node (.leaf (.mult 31907 3003 (.ofNat 1) 0)) .nil) .nil) .nil)))))) (.node (.node (.node (.node (.node .nil (.node (.node (.node (.leaf (.mult 3719 1335 (.ofNat 1) 0)) .nil) .nil) .nil)) (.node (.node (.node (.node (.leaf (.mult 4783 3011 (.ofNat 1) 0)) .nil) .nil) .nil) (.node (.node (.node (.leaf (.trans [(39308528107, .negSucc 0), (76665931417, .negSucc 0)] 0)) .nil) .nil) .nil))) (.node (.node .nil (.node (.node (.node (.leaf (.mult 19861 3239 (.ofNat 1) 0)) .nil) .nil) .nil)) .nil)) (.node (.node (.node .nil (.node (.node (.node (.leaf (.mult 40493 3174 (.ofNat 1) 0)) .nil) .nil) .nil)) (.node (.node (.node (.node (.leaf (.trans [(17068591, .negSucc 1)] 0)) .nil) .nil) .nil) (.node (.node (.node (.leaf (.trans [(13232459, .ofNat 1)] 0)) .nil) .nil) .nil))) (.node (.node .nil (.node (.node (.node (.leaf (.mult 32377 3283 (.ofNat 1) 0)) .nil) .nil) .nil)) (.node .nil (.node (.node (.node (.leaf (.trans [(19919, .ofNat 1), (19927, .negSucc 0)] 0)) .nil) .nil) .nil))))) (.node (.node (.node (.node (.node (.node (.node (.leaf (.mult 7253 1328 (.ofNat 1) 0)) .nil) .nil) .nil) (.node (.node (.node (.leaf (.mult 32083 3144 (.ofNat 1) 0)) .nil) .nil) .nil)) (.node (.node (.node (.node (.leaf (.mult 8861 3056 (.ofNat 1) 0)) .nil) .nil) .nil) (.node (.node (.node (.leaf (.trans [(14514109, .ofNat 1)] 0)) .nil) .nil) .nil))) (.node .nil (.node .nil (.node (.node (.node (.leaf (.mult 25453 3001 (.ofNat 1) 0)) .nil) .nil) .nil)))) (.node (.node (.node .nil (.node (.node (.node (.leaf (.mult 32191 3191 (.ofNat 1) 0)) .nil) .nil) .nil)) (.node (.node (.node (.node (.leaf (.mult 7841 3121 (.ofNat 1) 0)) .nil) .nil) .nil) .nil)) (.node (.node .nil (.node (.node (.node (.leaf (.trans [(35771159, .ofNat 1)] 0)) .nil) .nil) .nil)) (.node .nil (.node (.node (.node (.leaf (.mult 46237 4883 (.ofNat 1) 0)) .nil) .nil) .nil))))))

def jac302 : JTree := .node (.node (.node (.node (.node .nil (.node (.node (.node (.node (.leaf (.mult 13913 3007 (.negSucc 0) 0)) .nil) .nil) .nil) (.node (.node (.node (.leaf (.trans [(7743677, .ofNat 1)] 0)) .nil) .nil) .nil))) (.node (.node .nil (.node (.node (.node (.leaf (.mult 40639 3212 (.ofNat 1) 0)) .nil) .nil) .nil)) (.node (.node (.node (.node (.leaf (.trans [(10760933, .ofNat 1)] 0)) .nil) .nil) .nil) .nil))) (.node (.node (.node .nil (.node (.node (.node (.leaf (.mult 25819 3175 (.ofNat 1) 0)) .nil) .nil) .nil)) (.node (.node (.node (.node (.leaf (.mult 8893 3083 (.ofNat 1) 0)) .nil) .nil) .nil) .nil)) (.node (.node .nil (.node (.node (.node (.leaf (.mult 32359 3255 (.ofNat 1) 0)) .nil) .nil) .nil)) (.node .nil (.node (.node (.node (.leaf (.mult 40037 2987 (.ofNat 1) 0)) .nil) .nil) .nil))))) (.node (.node (.node (.node .nil (.node (.node (.node (.leaf (.trans [(87025597, .negSucc 0)] 0)) .nil) .nil) .nil)) (.node (.node (.node (.node (.leaf (.mult 19559 3035 (.ofNat 1) 0)) .nil) .nil) .nil) .nil)) (.node .nil (.node .nil (.node (.node (.node (.leaf (.mult 40903 3260 (.ofNat 1) 0)) .nil) .nil) .nil)))) (.node (.node (.node .nil (.node (.node (.node (.leaf (.mult 40751 3223 (.ofNat 1) 0)) .nil) .nil) .nil)) (.node (.node (.node (.node (.leaf (.trans [(13901779, .ofNat 1)] 0)) .nil) .nil) .nil) (.node (.node (.node (.leaf (.mult 12421 3092 (.ofNat 1) 0)) .nil) .nil) .nil))) (.node (.node .nil (.node (.node (.node (.leaf (.mult 40973 3274 (.ofNat 1) 0)) .nil) .nil) .nil)) (.node (.node (.node (.node (.leaf (.mult 1871 1334 (.negSucc 0) 0)) .nil) .nil) .nil) (.node (.node (.node (.leaf (.mult 34919 4878 (.ofNat 1) 0)) (.leaf (.trans [(47137, .ofNat 1)] 0))) .nil) .nil)))))) (.node (.node (.node (.node (.node .nil (.node (.node (.node (.leaf (.mult 4993 1504 (.negSucc 0) 0)) .nil) .nil) .nil)) (.node (.node (.node (.node (.leaf (.trans [(1612409, .ofNat 1), (72531390433, .negSucc 0), (79735167233, .ofNat 1)] 0)) .nil) .nil) .nil) (.node (.node (.node (.leaf (.mult 19531 3022 (.ofNat 1) 0)) .nil) .nil) .nil))) (.node (.node .nil (.node (.node (.node (.leaf (.trans [(1771243, .ofNat 1)] 0)) .nil) .nil) .nil)) (.node .nil (.node (.node (.node (.leaf (.mult 32467 3313 (.ofNat 1) 0)) .nil) .nil) .nil)))) (.node (.node (.node .nil (.node (.node (.node (.leaf (.mult 40459 3157 (.ofNat 1) 0)) .nil) .nil) .nil)) (.node (.node (.node (.node (.leaf (.mult 40129 3079 (.ofNat 1) 0)) .nil) .nil) .nil) .nil)) (.node (.node (.node (.node (.node (.leaf (.mult 3163 1329 (.ofNat 1) 0)) .nil) .nil) .nil) .nil) (.node .nil (.node (.node (.node (.leaf (.mult 41203 3319 (.ofNat 1) 0)) (.leaf (.trans [(15287, .ofNat 1)] 0))) .nil) .nil))))) (.node (.node (.node (.node (.node (.node (.node (.leaf (.trans [(46339369, .ofNat 1), (50941769, .negSucc 0)] 0)) .nil) .nil) .nil) (.node (.node (.node (.leaf (.mult 32089 3148 (.ofNat 1) 0)) .nil) .nil) .nil)) (.node (.node (.node (.node (.leaf (.mult 19603 3047 (.ofNat 1) 0)) .nil) .nil) .nil) (.node (.node (.node (.leaf (.trans [(8482511, .ofNat 1)] 0)) .nil) .nil) .nil))) (.node .nil (.node .nil (.node (.node (.node (.leaf (.mult 19447 2979 (.ofNat 1) 0)) .nil) .nil) .nil)))) (.node (.node (.node .nil (.node (.node (.node (.leaf (.mult 32213 3194 (.ofNat 1) 0)) .nil) .nil) .nil)) (.node (.node (.node (.node (.leaf (.trans [(3251987, .ofNat 1), (4138087, .ofNat 1)] 0)) .nil) .nil) .nil) (.node (.node (.node (.leaf (.mult 41113 3295 (.ofNat 1) 0)) .nil) .nil) .nil))) (.node .nil (.node .nil (.node (.node (.node (.leaf (.mult 40933 3268 (.ofNat 1) 0)) .nil) .nil) .nil))))))

def jac303 : JTree := .node (.node (.node (.node (.node (.node (.node (.node .nil (.node (.node (.leaf (.mult 41257 3331 (.negSucc 0) 0)) .nil) .nil)) .nil) .nil) (.node (.node .nil (.node (.node (.node (.leaf (.mult 32251 3203 (.ofNat 1) 0)) .nil) .nil) .nil)) (.node (.node (.node (.node (.leaf (.mult 25621 3096 (.ofNat 1) 0)) .nil) .nil) .nil) .nil))) (.node (.node (.node .nil (.node (.node (.node (.leaf (.mult 5801 3161 (.ofNat 1) 0)) .nil) .nil) .nil)) (.node (.node (.node (.node (.leaf (.mult 25541 3063 (.ofNat 1) 0)) .nil) .nil) .nil) .nil)) (.node (.node .nil (.node (.node (.node (.leaf (.mult 41011 3277 (.ofNat 1) 0)) .nil) .nil) .nil)) (.node .nil (.node (.node (.node (.leaf (.mult 19919 3297 (.ofNat 1) 0)) .nil) .nil) .nil))))) (.node (.node (.node (.node .nil (.node (.node (.node (.leaf (.mult 11119 1650 (.negSucc 0) 0)) .nil) .nil) .nil)) (.node (.node (.node (.node (.leaf (.mult 6299 3051 (.ofNat 1) 0)) .nil) .nil) .nil) .nil)) (.node (.node .nil (.node (.node (.node (.leaf (.mult 25919 3273 (.ofNat 1) 0)) .nil) .nil) .nil)) .nil)) (.node (.node (.node .nil (.node (.node (.node (.leaf (.mult 25759 3164 (.ofNat 1) 0)) .nil) .nil) .nil)) (.node (.node (.node (.node (.leaf (.mult 11863 3094 (.ofNat 1) 0)) .nil) .nil) .nil) .nil)) (.node (.node .nil (.node (.node (.node (.leaf (.mult 41077 3288 (.ofNat 1) 0)) .nil) .nil) .nil)) (.node .nil (.node (.node (.node (.leaf (.mult 41243 3329 (.ofNat 1) 0)) .nil) .nil) .nil)))))) (.node (.node (.node (.node (.node .nil (.node (.node (.node (.leaf (.mult 23159 1505 (.ofNat 1) 0)) .nil) .nil) .nil)) .nil) (.node (.node .nil (.node (.node (.node (.leaf (.mult 40699 3219 (.ofNat 1) 0)) .nil) .nil) .nil)) (.node .nil (.node (.node (.node (.leaf (.mult 25939 3312 (.ofNat 1) 0)) .nil) .nil) .nil)))) (.node (.node (.node .nil (.node (.node (.node (.leaf (.mult 25793 3168 (.ofNat 1) 0)) .nil) .nil) .nil)) (.node (.node (.node (.node (.leaf (.mult 8863 3078 (.ofNat 1) 0)) .nil) .nil) .nil) .nil)) (.node (.node .nil (.node (.node (.node (.leaf (.trans [(3268261, .ofNat 1)] 0)) .nil) .nil) .nil)) (.node .nil (.node (.node (.node (.leaf (.mult 8839 3004 (.ofNat 1) 0)) .nil) .nil) .nil))))) (.node (.node (.node (.node (.node (.node (.node (.leaf (.mult 7109 220 (.ofNat 1) 0)) .nil) .nil) .nil) (.node (.node (.node (.leaf (.mult 40351 3136 (.ofNat 1) 0)) .nil) .nil) .nil)) (.node (.node (.node (.node (.leaf (.mult 7823 3040 (.ofNat 1) 0)) .nil) .nil) .nil) .nil)) (.node (.node .nil (.node (.node (.node (.leaf (.mult 40853 3249 (.ofNat 1) 0)) .nil) .nil) .nil)) (.node .nil (.node (.node (.node (.leaf (.mult 13997 3261 (.ofNat 1) 0)) .nil) .nil) .nil)))) (.node (.node (.node .nil (.node (.node (.node (.leaf (.mult 40529 3187 (.ofNat 1) 0)) .nil) .nil) .nil)) (.node (.node (.node (.node (.leaf (.mult 6301 3112 (.ofNat 1) 0)) .nil) .nil) .nil) .nil)) (.node (.node .nil (.node (.node (.node (.leaf (.mult 31963 3013 (.ofNat 1) 0)) .nil) .nil) .nil)) (.node .nil (.node (.node (.node (.leaf (.mult 32423 3293 (.ofNat 1) 0)) .nil) .nil) .nil))))))) jac302

def jac304 : JTree := .node (.node (.node (.node (.node (.node (.node .nil (.node (.node (.leaf (.mult 47119 4986 (.ofNat 1) 0)) .nil) .nil)) .nil) (.node .nil (.node (.node (.node (.leaf (.trans [(16131727, .ofNat 1)] 0)) .nil) .nil) .nil))) (.node (.node .nil (.node (.node (.node (.leaf (.mult 32233 3198 (.ofNat 1) 0)) .nil) .nil) .nil)) (.node (.node (.node (.node (.leaf (.mult 8929 3118 (.ofNat 1) 0)) .nil) .nil) .nil) .nil))) (.node (.node (.node (.node (.node (.node (.leaf (.trans [(42440837, .negSucc 0), (46656037, .ofNat 1)] 0)) .nil) .nil) .nil) (.node (.node (.node (.leaf (.mult 25733 3151 (.ofNat 1) 0)) .nil) .nil) .nil)) (.node (.node (.node (.node (.leaf (.mult 19681 3060 (.ofNat 1) 0)) .nil) .nil) .nil) .nil)) (.node (.node .nil (.node (.node (.node (.leaf (.mult 40847 3247 (.ofNat 1) 0)) .nil) .nil) .nil)) (.node .nil (.node (.node (.node (.leaf (.mult 19469 2983 (.ofNat 1) 0)) .nil) .nil) .nil))))) (.node (.node (.node (.node .nil (.node (.node (.node (.leaf (.mult 2791 1555 (.ofNat 1) 0)) .nil) .nil) .nil)) (.node (.node (.node (.node (.leaf (.mult 32009 3030 (.ofNat 1) 0)) .nil) .nil) .nil) (.node (.node (.node (.leaf (.mult 32029 3052 (.ofNat 1) 0)) .nil) .nil) .nil))) (.node (.node .nil (.node (.node (.node (.leaf (.trans [(1671809, .ofNat 1)] 0)) .nil) .nil) .nil)) .nil)) (.node (.node (.node .nil (.node (.node (.node (.leaf (.mult 32119 3159 (.negSucc 0) 0)) .nil) .nil) .nil)) .nil) (.node (.node .nil (.node (.node (.node (.leaf (.mult 40883 3256 (.ofNat 1) 0)) .nil) .nil) .nil)) (.node .nil (.node (.node (.node (.leaf (.mult 16127 3320 (.ofNat 1) 0)) (.leaf (.mult 1103 1557 (.ofNat 1) 0))) .nil) .nil)))))) (.node (.node (.node (.node .nil (.node (.node (.node (.node (.leaf (.trans [(44147717, .ofNat 1)] 0)) .nil) .nil) .nil) (.node (.node (.node (.leaf (.trans [(1570470331, .ofNat 1)] 0)) .nil) .nil) .nil))) (.node (.node .nil (.node (.node (.node (.leaf (.mult 40693 3214 (.ofNat 1) 0)) .nil) .nil) .nil)) (.node (.node (.node (.node (.leaf (.mult 13933 3107 (.ofNat 1) 0)) .nil) .nil) .nil) (.node (.node (.node (.leaf (.mult 25643 3124 (.ofNat 1) 0)) .nil) .nil) .nil)))) (.node (.node (.node .nil (.node (.node (.node (.leaf (.mult 25847 3179 (.ofNat 1) 0)) .nil) .nil) .nil)) (.node .nil (.node (.node (.node (.leaf (.mult 19687 3061 (.ofNat 1) 0)) .nil) .nil) .nil))) (.node (.node .nil (.node (.node (.node (.leaf (.mult 32443 3306 (.ofNat 1) 0)) .nil) .nil) .nil)) (.node .nil (.node (.node (.node (.leaf (.mult 8951 3323 (.ofNat 1) 0)) .nil) .nil) .nil))))) (.node (.node (.node (.node .nil (.node (.node (.node (.leaf (.mult 25679 3135 (.ofNat 1) 0)) .nil) .nil) .nil)) (.node (.node (.node (.node (.leaf (.trans [(44220557, .negSucc 0)] 0)) .nil) .nil) .nil) .nil)) (.node .nil (.node .nil (.node (.node (.node (.leaf (.mult 13999 3262 (.ofNat 1) 0)) .nil) .nil) .nil)))) (.node (.node (.node .nil (.node (.node (.node (.leaf (.mult 40763 3225 (.ofNat 1) 0)) .nil) .nil) .nil)) (.node (.node (.node (.node (.leaf (.mult 13963 3108 (.ofNat 1) 0)) .nil) .nil) .nil) (.node (.node (.node (.leaf (.mult 40283 3130 (.ofNat 1) 0)) .nil) .nil) .nil))) (.node (.node .nil (.node (.node (.node (.leaf (.mult 19889 3259 (.ofNat 1) 0)) .nil) .nil) .nil)) (.node .nil (.node (.node (.node (.leaf (.mult 35149 4938 (.ofNat 1) 0)) .nil) .nil) .nil))))))

def jac305 : JTree := .node (.node (.node (.node (.node (.node (.node .nil (.node (.node (.leaf (.mult 47137 4989 (.negSucc 0) 0)) .nil) .nil)) .nil) (.node (.node (.node (.node (.leaf (.trans [(660697, .negSucc 0)] 0)) .nil) .nil) .nil) (.node (.node (.node (.leaf (.trans [(21230747, .ofNat 1)] 0)) .nil) .nil) .nil))) (.node (.node .nil (.node (.node (.node (.leaf (.mult 32261 3207 (.ofNat 1) 0)) .nil) .nil) .nil)) (.node (.node (.node (.node (.leaf (.mult 40169 3099 (.ofNat 1) 0)) .nil) .nil) .nil) .nil))) (.node (.node (.node .nil (.node (.node (.node (.leaf (.trans [(1705409609, .ofNat 1)] 0)) .nil) .nil) .nil)) (.node (.node (.node (.node (.leaf (.mult 25603 3073 (.ofNat 1) 0)) .nil) .nil) .nil) .nil)) (.node .nil (.node .nil (.node (.node (.node (.leaf (.mult 40039 2995 (.ofNat 1) 0)) .nil) .nil) .nil))))) (.node (.node (.node (.node .nil (.node (.node (.node (.leaf (.mult 19777 3186 (.ofNat 1) 0)) .nil) .nil) .nil)) (.node (.node (.node (.node (.leaf (.mult 40093 3036 (.negSucc 0) 0)) .nil) .nil) .nil) .nil)) (.node (.node .nil (.node (.node (.node (.leaf (.trans [(4183709, .negSucc 0)] 0)) .nil) .nil) .nil)) .nil)) (.node (.node (.node .nil (.node (.node (.node (.leaf (.mult 25849 3182 (.ofNat 1) 0)) .nil) .nil) .nil)) (.node (.node (.node (.node (.leaf (.mult 25609 3095 (.ofNat 1) 0)) .nil) .nil) .nil) .nil)) (.node (.node .nil (.node (.node (.node (.leaf (.mult 40829 3244 (.ofNat 1) 0)) .nil) .nil) .nil)) (.node .nil (.node (.node (.node (.leaf (.mult 6883 3330 (.ofNat 1) 0)) (.leaf (.trans [(2399, .ofNat 1)] 0))) .nil) .nil)))))) (.node (.node (.node (.node (.node .nil (.node (.node (.node (.leaf (.mult 23549 1647 (.ofNat 1) 0)) .nil) .nil) .nil)) (.node (.node (.node (.node (.leaf (.mult 19507 3021 (.ofNat 1) 0)) .nil) .nil) .nil) (.node (.node (.node (.leaf (.trans [(244600871, .negSucc 0), (274026373, .ofNat 1)] 0)) .nil) .nil) .nil))) (.node (.node .nil (.node (.node (.node (.leaf (.mult 19843 3237 (.ofNat 1) 0)) .nil) .nil) .nil)) .nil)) (.node (.node (.node .nil (.node (.node (.node (.leaf (.mult 25801 3173 (.ofNat 1) 0)) .nil) .nil) .nil)) (.node (.node (.node (.node (.leaf (.mult 40153 3087 (.ofNat 1) 0)) .nil) .nil) .nil) .nil)) (.node (.node .nil (.node (.node (.node (.leaf (.mult 32371 3282 (.ofNat 1) 0)) .nil) .nil) .nil)) (.node .nil (.node (.node (.node (.leaf (.trans [(19867, .ofNat 1), (19889, .negSucc 0)] 0)) .nil) .nil) .nil))))) (.node (.node (.node (.node .nil (.node (.node (.node (.leaf (.mult 32077 3143 (.ofNat 1) 0)) .nil) .nil) .nil)) (.node (.node (.node (.node (.leaf (.mult 10289 3034 (.ofNat 1) 0)) .nil) .nil) .nil) .nil)) (.node (.node .nil (.node (.node (.node (.leaf (.trans [(2961251, .ofNat 1)] 0)) .nil) .nil) .nil)) (.node .nil (.node (.node (.node (.leaf (.mult 41201 3316 (.ofNat 1) 0)) .nil) .nil) .nil)))) (.node (.node (.node .nil (.node (.node (.node (.leaf (.mult 40531 3190 (.ofNat 1) 0)) .nil) .nil) .nil)) (.node (.node (.node (.node (.leaf (.trans [(3889979, .ofNat 1)] 0)) .nil) .nil) .nil) (.node (.node (.node (.leaf (.mult 40253 3123 (.ofNat 1) 0)) .nil) .nil) .nil))) (.node .nil (.node (.node (.node (.node (.leaf (.trans [(3033541573, .ofNat 1)] 0)) .nil) .nil) .nil) (.node (.node (.node (.leaf (.mult 34939 4881 (.ofNat 1) 0)) .nil) .nil) .nil))))))

def jac306 : JTree := .node (.node (.node (.node (.node (.node (.node .nil (.node (.node (.leaf (.mult 47129 4988 (.ofNat 1) 0)) .nil) .nil)) .nil) (.node .nil (.node (.node (.node (.leaf (.trans [(14941831, .ofNat 1)] 0)) .nil) .nil) .nil))) (.node (.node .nil (.node (.node (.node (.leaf (.mult 40591 3202 (.ofNat 1) 0)) .nil) .nil) .nil)) (.node (.node (.node (.node (.leaf (.trans [(19529743, .ofNat 1)] 0)) .nil) .nil) .nil) (.node (.node (.node (.leaf (.mult 40939 3269 (.ofNat 1) 0)) .nil) .nil) .nil)))) (.node (.node (.node .nil (.node (.node (.node (.leaf (.mult 3547 3155 (.ofNat 1) 0)) .nil) .nil) .nil)) (.node (.node (.node (.node (.leaf (.mult 25561 3064 (.ofNat 1) 0)) .nil) .nil) .nil) (.node (.node (.node (.leaf (.trans [(5348279, .ofNat 1)] 0)) .nil) .nil) .nil))) (.node (.node .nil (.node (.node (.node (.leaf (.mult 41023 3279 (.ofNat 1) 0)) .nil) .nil) .nil)) (.node .nil (.node (.node (.node (.leaf (.mult 13907 3002 (.ofNat 1) 0)) .nil) .nil) .nil))))) (.node (.node (.node (.node .nil (.node (.node (.node (.leaf (.mult 11113 1648 (.ofNat 1) 0)) .nil) .nil) .nil)) (.node (.node (.node (.node (.leaf (.mult 6871 3049 (.ofNat 1) 0)) .nil) .nil) .nil) .nil)) (.node .nil (.node .nil (.node (.node (.node (.leaf (.mult 32069 3126 (.ofNat 1) 0)) .nil) .nil) .nil)))) (.node (.node (.node .nil (.node (.node (.node (.leaf (.mult 40471 3163 (.negSucc 0) 0)) .nil) .nil) .nil)) .nil) (.node (.node (.node (.node (.node (.leaf (.trans [(13309, .negSucc 0)] 0)) .nil) .nil) .nil) (.node (.node (.node (.leaf (.mult 32401 3289 (.ofNat 1) 0)) .nil) .nil) .nil)) (.node (.node (.node (.node (.leaf (.trans [(873088691, .negSucc 0)] 0)) .nil) .nil) .nil) (.node (.node (.node (.leaf (.mult 16091 3263 (.ofNat 1) 0)) (.leaf (.trans [(607, .ofNat 1)] 0))) .nil) .nil)))))) (.node (.node (.node (.node (.node .nil (.node (.node (.node (.leaf (.mult 22963 1333 (.ofNat 1) 0)) .nil) .nil) .nil)) (.node (.node (.node (.node (.leaf (.mult 8849 3017 (.ofNat 1) 0)) .nil) .nil) .nil) .nil)) (.node (.node .nil (.node (.node (.node (.leaf (.mult 32323 3218 (.ofNat 1) 0)) .nil) .nil) .nil)) (.node .nil (.node (.node (.node (.leaf (.mult 25673 3128 (.ofNat 1) 0)) .nil) .nil) .nil)))) (.node (.node (.node .nil (.node (.node (.node (.leaf (.mult 25771 3167 (.ofNat 1) 0)) .nil) .nil) .nil)) (.node (.node (.node (.node (.leaf (.mult 40127 3077 (.negSucc 0) 0)) .nil) .nil) .nil) (.node (.node (.node (.leaf (.trans [(11188733, .ofNat 1)] 0)) .nil) .nil) .nil))) (.node (.node .nil (.node (.node (.node (.leaf (.trans [(2380723, .ofNat 1)] 0)) .nil) .nil) .nil)) (.node .nil (.node (.node (.node (.leaf (.mult 8963 3324 (.ofNat 1) 0)) .nil) .nil) .nil))))) (.node (.node (.node (.node .nil (.node (.node (.node (.leaf (.mult 40387 3139 (.ofNat 1) 0)) .nil) .nil) .nil)) (.node (.node (.node (.node (.leaf (.mult 9833 3042 (.ofNat 1) 0)) .nil) .nil) .nil) (.node (.node (.node (.leaf (.trans [(6932573, .ofNat 1)] 0)) .nil) .nil) .nil))) (.node .nil (.node .nil (.node (.node (.node (.leaf (.mult 14011 3315 (.ofNat 1) 0)) .nil) .nil) .nil)))) (.node (.node .nil (.node (.node (.node (.node (.leaf (.mult 4519 3115 (.ofNat 1) 0)) .nil) .nil) .nil) .nil)) (.node (.node .nil (.node (.node (.node (.leaf (.mult 31981 3018 (.ofNat 1) 0)) .nil) .nil) .nil)) (.node (.node (.node (.node (.leaf (.trans [(2292026831, .ofNat 1)] 0)) .nil) .nil) .nil) (.node (.node (.node (.leaf (.mult 32411 3291 (.ofNat 1) 0)) .nil) .nil) .nil))))))

def jac307 : JTree := .node (.node (.node (.node (.node .nil (.node (.node (.node (.node (.leaf (.trans [(43211723, .negSucc 0)] 0)) .nil) .nil) .nil) (.node (.node (.node (.leaf (.trans [(14415673, .ofNat 1)] 0)) .nil) .nil) .nil))) (.node (.node .nil (.node (.node (.node (.leaf (.mult 32297 3210 (.ofNat 1) 0)) .nil) .nil) .nil)) (.node (.node (.node (.node (.leaf (.trans [(12626347, .ofNat 1)] 0)) .nil) .nil) .nil) .nil))) (.node (.node (.node .nil (.node (.node (.node (.leaf (.trans [(4551167, .ofNat 1)] 0)) .nil) .nil) .nil)) (.node (.node (.node (.node (.leaf (.mult 19709 3074 (.ofNat 1) 0)) .nil) .nil) .nil) .nil)) (.node (.node .nil (.node (.node (.node (.leaf (.mult 40879 3254 (.ofNat 1) 0)) .nil) .nil) .nil)) (.node .nil (.node (.node (.node (.leaf (.mult 8821 2985 (.ofNat 1) 0)) .nil) .nil) .nil))))) (.node (.node (.node (.node .nil (.node (.node (.node (.leaf (.trans [(84993871, .negSucc 0)] 0)) .nil) .nil) .nil)) (.node (.node (.node (.node (.leaf (.mult 10289 3034 (.negSucc 0) 0)) .nil) .nil) .nil) .nil)) (.node .nil (.node .nil (.node (.node (.node (.leaf (.mult 25873 3232 (.ofNat 1) 0)) .nil) .nil) .nil)))) (.node (.node (.node .nil (.node (.node (.node (.leaf (.mult 40739 3222 (.ofNat 1) 0)) .nil) .nil) .nil)) (.node (.node (.node (.node (.leaf (.trans [(12149677, .ofNat 1)] 0)) .nil) .nil) .nil) (.node (.node (.node (.leaf (.mult 19739 3091 (.ofNat 1) 0)) .nil) .nil) .nil))) (.node (.node .nil (.node (.node (.node (.leaf (.mult 25933 3300 (.ofNat 1) 0)) .nil) .nil) .nil)) (.node .nil (.node (.node (.node (.leaf (.mult 40087 3006 (.ofNat 1) 0)) (.leaf (.trans [(46681, .negSucc 0)] 0))) .nil) .nil)))))) (.node (.node (.node (.node (.node .nil (.node (.node (.node (.leaf (.mult 5003 1507 (.ofNat 1) 0)) .nil) .nil) .nil)) (.node (.node (.node (.node (.leaf (.mult 25469 3025 (.ofNat 1) 0)) .nil) .nil) .nil) (.node (.node (.node (.leaf (.mult 25523 3032 (.ofNat 1) 0)) .nil) .nil) .nil))) (.node (.node .nil (.node (.node (.node (.leaf (.mult 25889 3235 (.ofNat 1) 0)) .nil) .nil) .nil)) (.node .nil (.node (.node (.node (.leaf (.mult 25657 3125 (.ofNat 1) 0)) .nil) .nil) .nil)))) (.node (.node (.node .nil (.node (.node (.node (.leaf (.trans [(1323443203, .ofNat 1)] 0)) .nil) .nil) .nil)) (.node (.node (.node (.node (.leaf (.trans [(8173013, .ofNat 2)] 0)) .nil) .nil) .nil) .nil)) (.node (.node (.node (.node (.node (.leaf (.mult 13309 1327 (.ofNat 1) 0)) .nil) .nil) .nil) .nil) (.node .nil (.node (.node (.node (.leaf (.mult 16111 3318 (.ofNat 1) 0)) (.leaf (.mult 15287 1338 (.ofNat 1) 0))) .nil) .nil))))) (.node (.node (.node (.node (.node (.node (.node (.leaf (.trans [(2125129, .ofNat 1)] 0)) .nil) .nil) .nil) (.node (.node (.node (.leaf (.mult 40429 3147 (.ofNat 1) 0)) .nil) .nil) .nil)) (.node (.node (.node (.node (.leaf (.mult 19597 3046 (.ofNat 1) 0)) .nil) .nil) .nil) (.node (.node (.node (.leaf (.mult 19609 3053 (.ofNat 1) 0)) .nil) .nil) .nil))) (.node .nil (.node .nil (.node (.node (.node (.leaf (.mult 19457 2980 (.ofNat 1) 0)) .nil) .nil) .nil)))) (.node (.node (.node .nil (.node (.node (.node (.leaf (.mult 40559 3195 (.ofNat 1) 0)) .nil) .nil) .nil)) (.node (.node (.node (.node (.leaf (.mult 40237 3116 (.ofNat 1) 0)) .nil) .nil) .nil) .nil)) (.node (.node .nil (.node (.node (.node (.leaf (.trans [(15631393, .ofNat 1)] 0)) .nil) .nil) .nil)) (.node (.node (.node (.node (.leaf (.mult 23143 1503 (.negSucc 0) 0)) .nil) .nil) .nil) (.node (.node (.node (.leaf (.mult 47123 4987 (.ofNat 1) 0)) .nil) .nil) .nil))))))

def jac308 : JTree := .node (.node (.node (.node (.node .nil (.node (.node (.node (.node (.leaf (.mult 5791 3012 (.ofNat 1) 0)) .nil) .nil) .nil) (.node (.node (.node (.leaf (.mult 19541 3023 (.ofNat 1) 0)) .nil) .nil) .nil))) (.node (.node .nil (.node (.node (.node (.leaf (.mult 40627 3208 (.ofNat 1) 0)) .nil) .nil) .nil)) (.node (.node (.node (.node (.leaf (.mult 40213 3106 (.ofNat 1) 0)) .nil) .nil) .nil) .nil))) (.node (.node (.node .nil (.node (.node (.node (.leaf (.mult 32159 3176 (.ofNat 1) 0)) .nil) .nil) .nil)) (.node (.node (.node (.node (.leaf (.mult 25601 3072 (.ofNat 1) 0)) .nil) .nil) .nil) .nil)) (.node (.node .nil (.node (.node (.node (.leaf (.mult 32341 3251 (.ofNat 1) 0)) .nil) .nil) .nil)) (.node (.node (.node (.node (.leaf (.trans [(2754223, .negSucc 0)] 0)) .nil) .nil) .nil) (.node (.node (.node (.leaf (.mult 19477 2989 (.ofNat 1) 0)) .nil) .nil) .nil))))) (.node (.node (.node (.node .nil (.node (.node (.node (.leaf (.trans [(89860307, .ofNat 1)] 0)) .nil) .nil) .nil)) (.node (.node (.node (.node (.leaf (.mult 19571 3038 (.ofNat 1) 0)) .nil) .nil) .nil) .nil)) (.node .nil (.node .nil (.node (.node (.node (.leaf (.mult 41189 3314 (.ofNat 1) 0)) .nil) .nil) .nil)))) (.node (.node (.node .nil (.node (.node (.node (.leaf (.mult 40519 3184 (.ofNat 1) 0)) .nil) .nil) .nil)) (.node (.node (.node (.node (.leaf (.mult 25633 3097 (.ofNat 1) 0)) .nil) .nil) .nil) .nil)) (.node (.node .nil (.node (.node (.node (.leaf (.mult 41131 3298 (.ofNat 1) 0)) .nil) .nil) .nil)) (.node .nil (.node (.node (.node (.leaf (.mult 31883 2994 (.ofNat 1) 0)) (.leaf (.trans [(41257, .negSucc 0)] 0))) .nil) .nil)))))) (.node (.node (.node (.node (.node .nil (.node (.node (.node (.leaf (.mult 3727 1336 (.negSucc 0) 0)) .nil) .nil) .nil)) (.node (.node (.node (.node (.leaf (.mult 19501 3020 (.ofNat 1) 0)) .nil) .nil) .nil) (.node (.node (.node (.leaf (.trans [(31363778543, .negSucc 0), (34478811343, .ofNat 1)] 0)) .nil) .nil) .nil))) (.node (.node .nil (.node (.node (.node (.leaf (.mult 19801 3230 (.ofNat 1) 0)) .nil) .nil) .nil)) .nil)) (.node (.node (.node .nil (.node (.node (.node (.leaf (.trans [(141032201, .ofNat 1)] 0)) .nil) .nil) .nil)) (.node (.node (.node (.node (.leaf (.mult 13921 3089 (.ofNat 1) 0)) .nil) .nil) .nil) .nil)) (.node (.node .nil (.node (.node (.node (.leaf (.mult 41051 3286 (.ofNat 1) 0)) .nil) .nil) .nil)) (.node .nil (.node (.node (.node (.leaf (.trans [(19891, .ofNat 1), (19913, .negSucc 0)] 0)) .nil) .nil) .nil))))) (.node (.node (.node (.node (.node (.node (.node (.leaf (.trans [(181541, .negSucc 0), (354071, .negSucc 0)] 0)) .nil) .nil) .nil) (.node (.node (.node (.leaf (.mult 25693 3145 (.ofNat 1) 0)) .nil) .nil) .nil)) (.node (.node (.node (.node (.leaf (.mult 32027 3044 (.negSucc 0) 0)) .nil) .nil) .nil) (.node (.node (.node (.leaf (.mult 25537 3058 (.ofNat 1) 0)) .nil) .nil) .nil))) (.node .nil (.node .nil (.node (.node (.node (.leaf (.mult 19463 2982 (.ofNat 1) 0)) .nil) .nil) .nil)))) (.node (.node (.node .nil (.node (.node (.node (.leaf (.mult 40543 3192 (.ofNat 1) 0)) .nil) .nil) .nil)) (.node (.node (.node (.node (.leaf (.mult 8933 3122 (.ofNat 1) 0)) .nil) .nil) .nil) .nil)) (.node .nil (.node .nil (.node (.node (.node (.leaf (.mult 35153 4941 (.ofNat 1) 0)) .nil) .nil) .nil))))))

def jac309 : JTree := .node (.node (.node (.node (.node (.node (.node (.node (.node (.leaf (.trans [(479, .negSucc 0)] 0)) .nil) .nil) (.node (.node (.leaf (.mult 46271 4885 (.negSucc 0) 0)) .nil) .nil)) .nil) .nil) (.node (.node .nil (.node (.node (.node (.leaf (.mult 40597 3204 (.ofNat 1) 0)) .nil) .nil) .nil)) (.node (.node (.node (.node (.leaf (.mult 32063 3102 (.ofNat 1) 0)) .nil) .nil) .nil) .nil))) (.node (.node (.node .nil (.node (.node (.node (.leaf (.trans [(1850211547, .ofNat 1)] 0)) .nil) .nil) .nil)) (.node (.node (.node (.node (.leaf (.mult 25577 3065 (.ofNat 1) 0)) .nil) .nil) .nil) .nil)) (.node (.node .nil (.node (.node (.node (.leaf (.mult 41017 3278 (.ofNat 1) 0)) .nil) .nil) .nil)) (.node .nil (.node (.node (.node (.leaf (.mult 25447 2998 (.ofNat 1) 0)) .nil) .nil) .nil))))) (.node (.node (.node (.node .nil (.node (.node (.node (.leaf (.mult 11117 1649 (.ofNat 1) 0)) .nil) .nil) .nil)) (.node (.node (.node (.node (.leaf (.trans [(46209089, .ofNat 1)] 0)) .nil) .nil) .nil) (.node (.node (.node (.leaf (.trans [(12969727, .ofNat 1)] 0)) .nil) .nil) .nil))) .nil) (.node (.node (.node .nil (.node (.node (.node (.leaf (.mult 25763 3165 (.ofNat 1) 0)) .nil) .nil) .nil)) (.node (.node (.node (.node (.leaf (.mult 16063 3093 (.negSucc 0) 0)) .nil) .nil) .nil) .nil)) (.node (.node .nil (.node (.node (.node (.leaf (.mult 41057 3287 (.ofNat 1) 0)) .nil) .nil) .nil)) (.node (.node (.node (.node (.leaf (.trans [(243731291, .negSucc 0)] 0)) .nil) .nil) .nil) (.node (.node (.node (.leaf (.mult 16103 3267 (.ofNat 1) 0)) .nil) .nil) .nil)))))) (.node (.node (.node (.node (.node .nil (.node (.node (.node (.leaf (.mult 23279 1553 (.ofNat 1) 0)) .nil) .nil) .nil)) (.node (.node (.node (.node (.leaf (.mult 11839 3009 (.ofNat 1) 0)) .nil) .nil) .nil) .nil)) (.node (.node .nil (.node (.node (.node (.leaf (.mult 40709 3220 (.ofNat 1) 0)) .nil) .nil) .nil)) (.node .nil (.node (.node (.node (.leaf (.mult 25423 2981 (.ofNat 1) 0)) .nil) .nil) .nil)))) (.node (.node (.node .nil (.node (.node (.node (.leaf (.mult 40487 3171 (.ofNat 1) 0)) .nil) .nil) .nil)) .nil) (.node (.node .nil (.node (.node (.node (.leaf (.mult 32381 3285 (.ofNat 1) 0)) .nil) .nil) .nil)) (.node .nil (.node (.node (.node (.leaf (.mult 8819 2978 (.ofNat 1) 0)) .nil) .nil) .nil))))) (.node (.node (.node (.node (.node (.node (.node (.leaf (.trans [(132683, .negSucc 0), (148009, .ofNat 1)] 0)) .nil) .nil) .nil) (.node (.node (.node (.leaf (.mult 40357 3137 (.ofNat 1) 0)) .nil) .nil) .nil)) (.node (.node (.node (.node (.leaf (.mult 12401 3055 (.ofNat 1) 0)) .nil) .nil) .nil) .nil)) (.node .nil (.node .nil (.node (.node (.node (.leaf (.mult 14009 3265 (.ofNat 1) 0)) .nil) .nil) .nil)))) (.node (.node (.node .nil (.node (.node (.node (.leaf (.mult 32183 3188 (.ofNat 1) 0)) .nil) .nil) .nil)) (.node (.node (.node (.node (.leaf (.mult 40241 3120 (.ofNat 1) 0)) .nil) .nil) .nil) .nil)) (.node (.node .nil (.node (.node (.node (.leaf (.trans [(8719409, .ofNat 1)] 0)) .nil) .nil) .nil)) (.node .nil (.node (.node (.node (.leaf (.mult 41081 3294 (.ofNat 1) 0)) .nil) .nil) .nil))))))

def jac310 : JTree := .node (.node (.node (.node (.node (.node .nil (.node (.node (.node (.leaf (.mult 23539 1646 (.ofNat 1) 0)) .nil) .nil) .nil)) (.node (.node (.node (.node (.leaf (.trans [(43117031, .ofNat 1)] 0)) .nil) .nil) .nil) (.node (.node (.node (.leaf (.trans [(14411239, .ofNat 1)] 0)) .nil) .nil) .nil))) (.node (.node .nil (.node (.node (.node (.leaf (.mult 32299 3211 (.ofNat 1) 0)) .nil) .nil) .nil)) (.node (.node (.node (.node (.leaf (.mult 11317 3100 (.ofNat 1) 0)) .nil) .nil) .nil) .nil))) (.node (.node (.node .nil (.node (.node (.node (.leaf (.mult 25841 3178 (.ofNat 1) 0)) .nil) .nil) .nil)) (.node (.node (.node (.node (.leaf (.mult 8887 3082 (.ofNat 1) 0)) .nil) .nil) .nil) (.node (.node (.node (.leaf (.trans [(8494579, .ofNat 1)] 0)) .nil) .nil) .nil))) (.node (.node .nil (.node (.node (.node (.leaf (.mult 40867 3253 (.ofNat 1) 0)) .nil) .nil) .nil)) (.node .nil (.node (.node (.node (.leaf (.mult 19489 2992 (.ofNat 1) 0)) .nil) .nil) .nil))))) (.node (.node (.node (.node .nil (.node (.node (.node (.leaf (.mult 40343 3133 (.negSucc 0) 0)) .nil) .nil) .nil)) (.node (.node (.node (.node (.leaf (.trans [(45178403, .ofNat 1)] 0)) .nil) .nil) .nil) .nil)) (.node .nil (.node .nil (.node (.node (.node (.leaf (.mult 40927 3264 (.ofNat 1) 0)) .nil) .nil) .nil)))) (.node (.node (.node .nil (.node (.node (.node (.leaf (.mult 40801 3228 (.ofNat 1) 0)) .nil) .nil) .nil)) (.node (.node (.node (.node (.leaf (.mult 13967 3109 (.ofNat 1) 0)) .nil) .nil) .nil) (.node (.node (.node (.leaf (.mult 19727 3086 (.ofNat 1) 0)) .nil) .nil) .nil))) (.node (.node .nil (.node (.node (.node (.leaf (.mult 40993 3275 (.ofNat 1) 0)) .nil) .nil) .nil)) (.node (.node (.node (.node (.leaf (.trans [(3035129399, .ofNat 1)] 0)) .nil) .nil) .nil) (.node (.node (.node (.leaf (.mult 34913 4877 (.ofNat 1) 0)) .nil) .nil) .nil)))))) (.node (.node (.node (.node (.node .nil (.node (.node (.node (.leaf (.mult 4999 1506 (.ofNat 1) 0)) .nil) .nil) .nil)) (.node (.node (.node (.node (.leaf (.mult 19543 3026 (.ofNat 1) 0)) .nil) .nil) .nil) (.node (.node (.node (.leaf (.mult 19553 3027 (.ofNat 1) 0)) .nil) .nil) .nil))) (.node .nil (.node .nil (.node (.node (.node (.leaf (.mult 31873 2990 (.ofNat 1) 0)) .nil) .nil) .nil)))) (.node (.node (.node .nil (.node (.node (.node (.leaf (.mult 32117 3158 (.ofNat 1) 0)) .nil) .nil) .nil)) (.node (.node (.node (.node (.leaf (.mult 8867 3081 (.ofNat 1) 0)) .nil) .nil) .nil) (.node (.node (.node (.leaf (.trans [(5592553, .ofNat 1)] 0)) .nil) .nil) .nil))) (.node (.node (.node (.node (.node (.leaf (.mult 10973 1331 (.negSucc 0) 0)) .nil) .nil) .nil) (.node (.node (.node (.leaf (.mult 40897 3257 (.ofNat 1) 0)) .nil) .nil) .nil)) (.node .nil (.node (.node (.node (.leaf (.mult 16139 3327 (.ofNat 1) 0)) (.leaf (.mult 15511 1508 (.ofNat 1) 0))) .nil) .nil))))) (.node (.node (.node (.node (.node (.node (.node (.leaf (.trans [(330989, .negSucc 0), (370807, .ofNat 1)] 0)) .nil) .nil) .nil) (.node (.node (.node (.leaf (.mult 32099 3149 (.ofNat 1) 0)) .nil) .nil) .nil)) (.node (.node (.node (.node (.leaf (.mult 19583 3043 (.ofNat 1) 0)) .nil) .nil) .nil) (.node (.node (.node (.leaf (.trans [(23382713, .ofNat 1)] 0)) .nil) .nil) .nil))) (.node (.node .nil (.node (.node (.node (.leaf (.mult 40849 3248 (.ofNat 1) 0)) .nil) .nil) .nil)) (.node .nil (.node (.node (.node (.leaf (.mult 40063 3000 (.ofNat 1) 0)) .nil) .nil) .nil)))) (.node (.node (.node .nil (.node (.node (.node (.leaf (.mult 16069 3196 (.ofNat 1) 0)) .nil) .nil) .nil)) (.node (.node (.node (.node (.leaf (.trans [(5254573, .ofNat 1)] 0)) .nil) .nil) .nil) .nil)) (.node .nil (.node .nil (.node (.node (.node (.leaf (.mult 46229 4880 (.ofNat 1) 0)) .nil) .nil) .nil))))))

def jac311 : JTree := .node (.node (.node (.node (.node (.node (.node .nil (.node (.node (.leaf (.mult 46691 4947 (.ofNat 1) 0)) .nil) .nil)) (.node (.node (.node (.leaf (.mult 23561 1657 (.ofNat 1) 0)) .nil) .nil) .nil)) (.node (.node (.node (.node (.leaf (.trans [(15359, .ofNat 1), (15361, .ofNat 1)] 0)) .nil) .nil) .nil) .nil)) (.node (.node .nil (.node (.node (.node (.leaf (.mult 41771 3574 (.ofNat 1) 0)) .nil) .nil) .nil)) (.node (.node (.node (.node (.leaf (.mult 7867 3495 (.ofNat 1) 0)) .nil) .nil) .nil) (.node (.node (.node (.leaf (.mult 42409 3709 (.ofNat 1) 0)) .nil) .nil) .nil)))) (.node (.node (.node .nil (.node (.node (.node (.leaf (.mult 26261 3525 (.ofNat 1) 0)) .nil) .nil) .nil)) (.node (.node (.node (.node (.leaf (.mult 10313 3425 (.ofNat 1) 0)) .nil) .nil) .nil) (.node (.node (.node (.leaf (.trans [(8683357, .ofNat 1)] 0)) .nil) .nil) .nil))) (.node (.node .nil (.node (.node (.node (.leaf (.mult 41983 3625 (.ofNat 1) 0)) .nil) .nil) .nil)) (.node (.node (.node (.node (.leaf (.trans [(715831, .ofNat 2)] 1)) .nil) .nil) .nil) (.node (.node (.node (.leaf (.mult 14071 3346 (.ofNat 1) 0)) .nil) .nil) .nil))))) (.node (.node (.node (.node .nil (.node (.node (.node (.leaf (.mult 2969 1563 (.negSucc 0) 0)) .nil) .nil) .nil)) (.node (.node (.node (.node (.leaf (.mult 32563 3399 (.ofNat 1) 0)) .nil) .nil) .nil) (.node (.node (.node (.leaf (.mult 32587 3434 (.ofNat 1) 0)) .nil) .nil) .nil))) (.node (.node (.node (.node (.node (.leaf (.mult 4327 3350 (.ofNat 1) 0)) .nil) .nil) .nil) (.node (.node (.node (.leaf (.mult 26431 3621 (.ofNat 1) 0)) .nil) .nil) .nil)) (.node (.node (.node (.node (.leaf (.mult 29251 1365 (.ofNat 1) 0)) .nil) .nil) .nil) (.node (.node (.node (.leaf (.mult 32503 3367 (.ofNat 1) 0)) .nil) .nil) .nil)))) (.node (.node (.node (.node (.node (.node (.leaf (.mult 6581 1445 (.ofNat 1) 0)) .nil) .nil) .nil) (.node (.node (.node (.leaf (.trans [(1107891893, .negSucc 0)] 0)) .nil) .nil) .nil)) (.node (.node (.node (.node (.leaf (.trans [(910489, .ofNat 1)] 0)) .nil) .nil) .nil) .nil)) (.node (.node .nil (.node (.node (.node (.leaf (.mult 32969 3638 (.ofNat 1) 0)) .nil) .nil) .nil)) (.node (.node (.node (.node (.leaf (.mult 17539 1429 (.ofNat 1) 0)) .nil) .nil) .nil) (.node (.node (.node (.leaf (.mult 42451 3716 (.ofNat 1) 0)) (.leaf (.trans [(15527, .ofNat 1)] 0))) .nil) .nil)))))) (.node (.node (.node (.node (.node .nil (.node (.node (.node (.leaf (.mult 10993 1432 (.ofNat 1) 0)) .nil) .nil) .nil)) (.node (.node (.node (.node (.leaf (.mult 11867 3379 (.ofNat 1) 0)) .nil) .nil) .nil) .nil)) (.node (.node .nil (.node (.node (.node (.leaf (.mult 32887 3590 (.ofNat 1) 0)) .nil) .nil) .nil)) (.node (.node (.node (.node (.leaf (.mult 14107 3482 (.ofNat 1) 0)) .nil) .nil) .nil) (.node (.node (.node (.leaf (.mult 14051 3336 (.ofNat 1) 0)) .nil) .nil) .nil)))) (.node (.node (.node (.node (.node (.node (.leaf (.mult 4111 1402 (.ofNat 1) 0)) .nil) .nil) .nil) (.node (.node (.node (.leaf (.mult 26387 3555 (.ofNat 1) 0)) .nil) .nil) .nil)) (.node (.node (.node (.node (.leaf (.mult 9059 3461 (.ofNat 1) 0)) .nil) .nil) .nil) (.node (.node (.node (.leaf (.mult 20201 3452 (.ofNat 1) 0)) .nil) .nil) .nil))) (.node (.node .nil (.node (.node (.node (.leaf (.mult 32933 3629 (.ofNat 1) 0)) .nil) .nil) .nil)) (.node (.node (.node (.node (.leaf (.mult 17497 1425 (.ofNat 1) 0)) .nil) .nil) .nil) (.node (.node (.node (.leaf (.mult 42131 3651 (.ofNat 1) 0)) .nil) .nil) .nil))))) (.node (.node (.node (.node .nil (.node (.node (.node (.leaf (.mult 20249 3512 (.negSucc 0) 0)) .nil) .nil) .nil)) (.node (.node (.node (.node (.leaf (.mult 7043 3412 (.ofNat 1) 0)) .nil) .nil) .nil) (.node (.node (.node (.leaf (.trans [(14664151, .ofNat 1)] 0)) .nil) .nil) .nil))) (.node (.node .nil (.node (.node (.node (.leaf (.mult 41959 3620 (.ofNat 1) 0)) .nil) .nil) .nil)) (.node (.node (.node (.node (.leaf (.trans [(9153059, .negSucc 1)] 1)) .nil) .nil) .nil) (.node (.node (.node (.leaf (.mult 20333 3611 (.ofNat 1) 0)) .nil) .nil) .nil)))) (.node (.node (.node .nil (.node (.node (.node (.leaf (.mult 41941 3603 (.ofNat 1) 0)) .nil) .nil) .nil)) (.node (.node (.node (.node (.leaf (.mult 16231 3488 (.ofNat 1) 0)) .nil) .nil) .nil) (.node (.node (.node (.leaf (.mult 42379 3698 (.ofNat 1) 0)) .nil) .nil) .nil))) (.node (.node (.node (.node (.node (.leaf (.trans [(104316497, .negSucc 0)] 0)) .nil) .nil) .nil) (.node (.node (.node (.leaf (.mult 26459 3657 (.ofNat 1) 0)) .nil) .nil) .nil)) (.node (.node (.node (.node (.leaf (.mult 6977 1389 (.ofNat 1) 0)) .nil) .nil) .nil) (.node (.node (.node (.leaf (.mult 46273 4888 (.ofNat 1) 0)) .nil) .nil) .nil))))))

end BP.EL
