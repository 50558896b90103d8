import Verif.Lemmas.JTree
import Verif.Gen.Jacobian11

/-!
# Generated by tools/gen_jacobian.py
-/

namespace BP.EL

def jac312 : JTree := .node (.node (.node (.node (.node (.node (.node .nil (.node (.node (.leaf (.mult 46727 4951 (.negSucc 0) 0)) .nil) .nil)) (.node (.node (.node (.leaf (.mult 29501 1515 (.ofNat 1) 0)) .nil) .nil) .nil)) (.node (.node (.node (.node (.leaf (.trans [(17491, .negSucc 0), (378857, .negSucc 0)] 0)) .nil) .nil) .nil) .nil)) (.node (.node .nil (.node (.node (.node (.leaf (.mult 32833 3582 (.ofNat 1) 0)) .nil) .nil) .nil)) (.node (.node (.node (.node (.leaf (.mult 26183 3475 (.ofNat 1) 0)) .nil) .nil) .nil) .nil))) (.node (.node (.node (.node (.node (.node (.leaf (.trans [(18681679, .ofNat 1)] 0)) .nil) .nil) .nil) (.node (.node (.node (.leaf (.mult 5351 3531 (.ofNat 2) 1)) .nil) .nil) .nil)) (.node (.node (.node (.node (.leaf (.mult 12451 3444 (.ofNat 1) 0)) .nil) .nil) .nil) (.node (.node (.node (.leaf (.trans [(282058501, .ofNat 1)] 0)) .nil) .nil) .nil))) (.node .nil (.node .nil (.node (.node (.node (.leaf (.mult 42433 3710 (.ofNat 1) 0)) .nil) .nil) .nil))))) (.node (.node (.node (.node (.node (.node (.node (.leaf (.trans [(715831, .ofNat 2)] 1)) .nil) .nil) .nil) .nil) (.node (.node (.node (.node (.leaf (.mult 5651 3407 (.ofNat 1) 0)) .nil) .nil) .nil) (.node (.node (.node (.leaf (.trans [(2778817, .ofNat 1)] 0)) .nil) .nil) .nil))) (.node (.node (.node (.node (.node (.leaf (.trans [(561571, .ofNat 1)] 0)) .nil) .nil) .nil) .nil) (.node (.node (.node (.node (.leaf (.mult 29243 1362 (.negSucc 1) 1)) .nil) .nil) .nil) (.node (.node (.node (.leaf (.mult 25951 3341 (.ofNat 1) 0)) .nil) .nil) .nil)))) (.node (.node (.node .nil (.node (.node (.node (.leaf (.mult 41647 3541 (.ofNat 1) 0)) .nil) .nil) .nil)) (.node .nil (.node (.node (.node (.leaf (.trans [(5704871, .ofNat 1)] 0)) .nil) .nil) .nil))) (.node (.node (.node (.node (.node (.leaf (.mult 15289 1341 (.ofNat 1) 0)) .nil) .nil) .nil) (.node (.node (.node (.leaf (.mult 41969 3622 (.ofNat 1) 0)) .nil) .nil) .nil)) (.node (.node (.node (.node (.leaf (.mult 35897 1661 (.ofNat 1) 0)) .nil) .nil) .nil) (.node (.node (.node (.leaf (.mult 42443 3714 (.ofNat 1) 0)) (.leaf (.mult 2411 1669 (.ofNat 1) 0))) .nil) .nil)))))) (.node (.node (.node (.node (.node (.node (.node (.node (.leaf (.trans [(74513, .negSucc 0)] 0)) .nil) .nil) .nil) (.node (.node (.node (.leaf (.mult 23333 1587 (.ofNat 1) 0)) .nil) .nil) .nil)) (.node (.node (.node (.node (.leaf (.mult 11351 3381 (.ofNat 1) 0)) .nil) .nil) .nil) (.node (.node (.node (.leaf (.trans [(14588809, .ofNat 1)] 0)) .nil) .nil) .nil))) (.node (.node (.node (.node (.node (.leaf (.trans [(316721, .ofNat 1)] 0)) .nil) .nil) .nil) (.node (.node (.node (.leaf (.mult 16267 3598 (.ofNat 1) 0)) .nil) .nil) .nil)) (.node .nil (.node (.node (.node (.leaf (.mult 25981 3368 (.ofNat 1) 0)) .nil) .nil) .nil)))) (.node (.node (.node (.node (.node (.node (.leaf (.trans [(406477, .ofNat 1)] 0)) .nil) .nil) .nil) (.node (.node (.node (.leaf (.mult 26339 3547 (.ofNat 1) 0)) .nil) .nil) .nil)) (.node (.node (.node (.node (.leaf (.mult 41453 3465 (.ofNat 1) 0)) .nil) .nil) .nil) .nil)) (.node (.node .nil (.node (.node (.node (.leaf (.mult 32971 3662 (.ofNat 1) 0)) .nil) .nil) .nil)) (.node (.node (.node (.node (.leaf (.mult 17551 1431 (.ofNat 1) 0)) .nil) .nil) .nil) (.node (.node (.node (.leaf (.mult 20441 3697 (.ofNat 1) 0)) .nil) .nil) .nil))))) (.node (.node (.node (.node .nil (.node (.node (.node (.leaf (.mult 20261 3517 (.ofNat 1) 0)) .nil) .nil) .nil)) (.node (.node (.node (.node (.leaf (.mult 16217 3431 (.ofNat 1) 0)) .nil) .nil) .nil) (.node (.node (.node (.leaf (.trans [(5831851, .ofNat 1)] 0)) .nil) .nil) .nil))) (.node .nil (.node (.node (.node (.node (.leaf (.mult 23011 1373 (.ofNat 2) 1)) .nil) .nil) .nil) (.node (.node (.node (.leaf (.mult 20389 3619 (.ofNat 1) 0)) .nil) .nil) .nil)))) (.node (.node (.node .nil (.node (.node (.node (.leaf (.mult 32779 3566 (.negSucc 1) 1)) .nil) .nil) .nil)) (.node (.node (.node (.node (.leaf (.trans [(3307771, .ofNat 1)] 0)) .nil) .nil) .nil) (.node (.node (.node (.leaf (.mult 20357 3616 (.ofNat 1) 0)) .nil) .nil) .nil))) (.node (.node (.node (.node (.node (.leaf (.mult 17483 1398 (.ofNat 1) 0)) .nil) .nil) .nil) .nil) (.node (.node (.node (.node (.leaf (.mult 23027 1412 (.ofNat 1) 0)) .nil) .nil) .nil) (.node (.node (.node (.leaf (.mult 35023 4891 (.ofNat 1) 0)) .nil) .nil) .nil))))))

def jac313 : JTree := .node (.node (.node (.node (.node (.node (.node .nil (.node (.node (.leaf (.mult 46723 4950 (.ofNat 1) 0)) .nil) .nil)) .nil) (.node (.node (.node (.node (.leaf (.mult 15401 1424 (.ofNat 1) 0)) .nil) .nil) .nil) .nil)) (.node (.node .nil (.node (.node (.node (.leaf (.mult 16253 3578 (.ofNat 1) 0)) .nil) .nil) .nil)) (.node (.node (.node (.node (.leaf (.trans [(18589693, .ofNat 1)] 0)) .nil) .nil) .nil) (.node (.node (.node (.leaf (.mult 19991 3349 (.ofNat 1) 0)) .nil) .nil) .nil)))) (.node (.node (.node (.node (.node (.node (.leaf (.trans [(19107877, .negSucc 0)] 0)) .nil) .nil) .nil) (.node (.node (.node (.leaf (.mult 9103 3528 (.ofNat 1) 0)) .nil) .nil) .nil)) (.node (.node (.node (.node (.leaf (.mult 26111 3443 (.ofNat 1) 0)) .nil) .nil) .nil) (.node (.node (.node (.leaf (.trans [(2383861, .ofNat 1)] 0)) .nil) .nil) .nil))) (.node (.node .nil (.node (.node (.node (.leaf (.mult 42299 3683 (.ofNat 1) 0)) .nil) .nil) .nil)) (.node (.node (.node (.node (.leaf (.mult 13397 1379 (.ofNat 1) 0)) .nil) .nil) .nil) (.node (.node (.node (.leaf (.mult 14057 3344 (.ofNat 1) 0)) .nil) .nil) .nil))))) (.node (.node (.node (.node (.node (.node (.node (.leaf (.trans [(3669, .ofNat 2)] 1)) .nil) .nil) .nil) (.node (.node (.node (.leaf (.mult 3251 1589 (.negSucc 0) 0)) .nil) .nil) .nil)) (.node (.node (.node (.node (.leaf (.mult 6311 3427 (.ofNat 1) 0)) .nil) .nil) .nil) (.node (.node (.node (.leaf (.trans [(5443513, .ofNat 1)] 0)) .nil) .nil) .nil))) (.node (.node (.node (.node (.node (.leaf (.trans [(316721, .ofNat 1), (403021, .ofNat 1)] 0)) .nil) .nil) .nil) (.node (.node (.node (.leaf (.trans [(1796401, .negSucc 0)] 0)) .nil) .nil) .nil)) (.node (.node (.node (.node (.leaf (.mult 13331 1366 (.ofNat 2) 1)) .nil) .nil) .nil) .nil))) (.node (.node (.node .nil (.node (.node (.node (.leaf (.mult 26293 3537 (.ofNat 1) 0)) .nil) .nil) .nil)) (.node (.node (.node (.node (.leaf (.trans [(324937, .ofNat 1)] 0)) .nil) .nil) .nil) (.node (.node (.node (.leaf (.trans [(17735533, .ofNat 1)] 0)) .nil) .nil) .nil))) (.node (.node .nil (.node (.node (.node (.leaf (.mult 42337 3691 (.ofNat 1) 0)) .nil) .nil) .nil)) (.node (.node (.node (.node (.leaf (.mult 17519 1428 (.ofNat 1) 0)) .nil) .nil) .nil) (.node (.node (.node (.leaf (.mult 42437 3713 (.ofNat 1) 0)) (.leaf (.mult 683 1590 (.ofNat 1) 0))) .nil) .nil)))))) (.node (.node (.node (.node (.node .nil (.node (.node (.node (.leaf (.mult 23557 1656 (.ofNat 1) 0)) .nil) .nil) .nil)) .nil) (.node (.node (.node (.node (.node (.leaf (.trans [(140543017, .negSucc 0)] 0)) .nil) .nil) .nil) (.node (.node (.node (.leaf (.mult 41879 3594 (.negSucc 0) 0)) .nil) .nil) .nil)) (.node .nil (.node (.node (.node (.leaf (.mult 14033 3334 (.ofNat 1) 0)) .nil) .nil) .nil)))) (.node (.node (.node .nil (.node (.node (.node (.leaf (.mult 32717 3545 (.ofNat 1) 0)) .nil) .nil) .nil)) (.node (.node (.node (.node (.leaf (.mult 41389 3453 (.ofNat 1) 0)) .nil) .nil) .nil) (.node (.node (.node (.leaf (.mult 32603 3462 (.ofNat 1) 0)) .nil) .nil) .nil))) (.node (.node .nil (.node (.node (.node (.leaf (.mult 42331 3689 (.ofNat 1) 0)) .nil) .nil) .nil)) (.node (.node (.node (.node (.leaf (.mult 15427 1435 (.ofNat 1) 0)) .nil) .nil) .nil) (.node (.node (.node (.leaf (.mult 20399 3652 (.ofNat 1) 0)) .nil) .nil) .nil))))) (.node (.node (.node (.node .nil (.node (.node (.node (.leaf (.mult 41609 3515 (.negSucc 0) 0)) .nil) .nil) .nil)) (.node (.node (.node (.node (.leaf (.mult 7043 3412 (.negSucc 0) 0)) .nil) .nil) .nil) (.node (.node (.node (.leaf (.trans [(2766703, .ofNat 1)] 0)) .nil) .nil) .nil))) (.node (.node .nil (.node (.node (.node (.leaf (.mult 42139 3653 (.ofNat 1) 0)) .nil) .nil) .nil)) (.node (.node (.node (.node (.leaf (.mult 23021 1383 (.negSucc 1) 1)) .nil) .nil) .nil) (.node (.node (.node (.leaf (.mult 41549 3507 (.ofNat 1) 0)) .nil) .nil) .nil)))) (.node (.node (.node .nil (.node (.node (.node (.leaf (.mult 20297 3606 (.ofNat 1) 0)) .nil) .nil) .nil)) (.node (.node (.node (.node (.leaf (.mult 5119 3492 (.ofNat 1) 0)) .nil) .nil) .nil) (.node (.node (.node (.leaf (.mult 42073 3644 (.ofNat 1) 0)) .nil) .nil) .nil))) (.node (.node (.node (.node (.node (.leaf (.mult 35533 1423 (.ofNat 1) 0)) .nil) .nil) .nil) .nil) (.node .nil (.node (.node (.node (.leaf (.mult 33023 3673 (.ofNat 1) 0)) .nil) .nil) .nil))))))

def jac314 : JTree := .node (.node (.node (.node (.node (.node .nil (.node (.node (.node (.leaf (.mult 29633 1558 (.ofNat 1) 0)) .nil) .nil) .nil)) (.node (.node (.node (.node (.leaf (.trans [(47486941, .negSucc 0)] 0)) .nil) .nil) .nil) (.node (.node (.node (.leaf (.mult 32537 3385 (.ofNat 1) 0)) .nil) .nil) .nil))) (.node (.node .nil (.node (.node (.node (.leaf (.mult 41849 3586 (.ofNat 1) 0)) .nil) .nil) .nil)) (.node (.node (.node (.node (.leaf (.mult 41507 3481 (.ofNat 1) 0)) .nil) .nil) .nil) (.node (.node (.node (.leaf (.mult 42373 3696 (.ofNat 1) 0)) .nil) .nil) .nil)))) (.node (.node (.node (.node (.node (.node (.leaf (.mult 863 1414 (.ofNat 1) 0)) .nil) .nil) .nil) (.node (.node (.node (.leaf (.mult 32749 3553 (.ofNat 1) 0)) .nil) .nil) .nil)) (.node (.node (.node (.node (.leaf (.mult 26113 3447 (.ofNat 1) 0)) .nil) .nil) .nil) (.node (.node (.node (.leaf (.trans [(2834687, .ofNat 1)] 0)) .nil) .nil) .nil))) (.node (.node .nil (.node (.node (.node (.leaf (.mult 32941 3631 (.ofNat 1) 0)) .nil) .nil) .nil)) (.node .nil (.node (.node (.node (.leaf (.mult 19993 3352 (.ofNat 1) 0)) .nil) .nil) .nil))))) (.node (.node (.node (.node .nil (.node (.node (.node (.leaf (.mult 41593 3510 (.negSucc 0) 0)) .nil) .nil) .nil)) (.node (.node (.node (.node (.leaf (.mult 5647 3404 (.ofNat 1) 0)) .nil) .nil) .nil) (.node (.node (.node (.leaf (.trans [(6621647, .ofNat 1)] 0)) .nil) .nil) .nil))) (.node .nil (.node (.node (.node (.node (.leaf (.mult 29269 1368 (.ofNat 2) 1)) .nil) .nil) .nil) (.node (.node (.node (.leaf (.mult 20233 3509 (.ofNat 1) 0)) .nil) .nil) .nil)))) (.node (.node (.node .nil (.node (.node (.node (.leaf (.mult 20269 3562 (.ofNat 1) 0)) .nil) .nil) .nil)) (.node (.node (.node (.node (.leaf (.mult 41519 3487 (.ofNat 1) 0)) .nil) .nil) .nil) (.node (.node (.node (.leaf (.trans [(7476907, .ofNat 1)] 0)) .nil) .nil) .nil))) (.node (.node (.node (.node (.node (.leaf (.trans [(4133, .ofNat 1), (132079, .negSucc 0)] 0)) .nil) .nil) .nil) (.node (.node (.node (.leaf (.mult 42283 3680 (.ofNat 1) 0)) .nil) .nil) .nil)) (.node .nil (.node (.node (.node (.leaf (.mult 32531 3376 (.ofNat 1) 0)) (.leaf (.trans [(46309, .ofNat 1)] 0))) .nil) .nil)))))) (.node (.node (.node (.node (.node (.node (.node (.node (.leaf (.mult 1307 1348 (.ofNat 1) 0)) .nil) .nil) .nil) (.node (.node (.node (.leaf (.mult 3767 1450 (.negSucc 0) 0)) .nil) .nil) .nil)) (.node (.node (.node (.node (.leaf (.mult 26017 3395 (.ofNat 1) 0)) .nil) .nil) .nil) (.node (.node (.node (.leaf (.trans [(19235431, .ofNat 1)] 0)) .nil) .nil) .nil))) (.node (.node (.node (.node (.node (.leaf (.trans [(415733, .ofNat 1)] 0)) .nil) .nil) .nil) (.node (.node (.node (.leaf (.mult 20327 3610 (.ofNat 1) 0)) .nil) .nil) .nil)) (.node (.node (.node (.node (.leaf (.mult 29231 1360 (.ofNat 1) 0)) .nil) .nil) .nil) .nil))) (.node (.node (.node (.node (.node (.node (.leaf (.mult 5521 1407 (.ofNat 1) 0)) .nil) .nil) .nil) (.node (.node (.node (.leaf (.trans [(158690269, .negSucc 0)] 0)) .nil) .nil) .nil)) (.node (.node (.node (.node (.leaf (.mult 41413 3457 (.ofNat 1) 0)) .nil) .nil) .nil) .nil)) (.node (.node .nil (.node (.node (.node (.leaf (.mult 42197 3665 (.ofNat 1) 0)) .nil) .nil) .nil)) (.node (.node (.node (.node (.leaf (.mult 9733 1385 (.ofNat 1) 0)) .nil) .nil) .nil) (.node (.node (.node (.leaf (.trans [(20441, .ofNat 1)] 0)) .nil) .nil) .nil))))) (.node (.node (.node (.node .nil (.node (.node (.node (.leaf (.mult 26251 3521 (.ofNat 1) 0)) .nil) .nil) .nil)) (.node (.node (.node (.node (.leaf (.mult 41387 3422 (.ofNat 1) 0)) .nil) .nil) .nil) (.node (.node (.node (.leaf (.mult 20173 3439 (.ofNat 1) 0)) .nil) .nil) .nil))) (.node (.node .nil (.node (.node (.node (.leaf (.mult 42193 3661 (.ofNat 1) 0)) .nil) .nil) .nil)) (.node (.node (.node (.node (.leaf (.trans [(7196809, .ofNat 2)] 1)) .nil) .nil) .nil) (.node (.node (.node (.leaf (.trans [(18215201, .negSucc 0)] 0)) .nil) .nil) .nil)))) (.node (.node (.node .nil (.node (.node (.node (.leaf (.mult 32789 3570 (.ofNat 1) 0)) .nil) .nil) .nil)) (.node (.node (.node (.node (.leaf (.mult 11383 3497 (.ofNat 1) 0)) .nil) .nil) .nil) .nil)) (.node (.node (.node (.node (.node (.leaf (.mult 15361 1400 (.ofNat 1) 0)) .nil) .nil) .nil) .nil) (.node (.node (.node (.node (.leaf (.mult 12211 1509 (.ofNat 1) 0)) .nil) .nil) .nil) (.node (.node (.node (.leaf (.mult 46703 4949 (.ofNat 1) 0)) .nil) .nil) .nil))))))

def jac315 : JTree := .node (.node (.node (.node (.node (.node (.node .nil (.node (.node (.leaf (.mult 42359 3695 (.ofNat 1) 0)) .nil) .nil)) .nil) (.node (.node (.node (.node (.leaf (.trans [(3389, .ofNat 1), (15443, .ofNat 1)] 0)) .nil) .nil) .nil) .nil)) (.node (.node .nil (.node (.node (.node (.leaf (.mult 41777 3577 (.negSucc 0) 0)) .nil) .nil) .nil)) (.node (.node (.node (.node (.leaf (.mult 11369 3491 (.ofNat 1) 0)) .nil) .nil) .nil) (.node (.node (.node (.leaf (.mult 41269 3356 (.ofNat 1) 0)) .nil) .nil) .nil)))) (.node (.node (.node (.node (.node (.node (.leaf (.mult 1307 1348 (.negSucc 0) 0)) .nil) .nil) .nil) (.node (.node (.node (.leaf (.mult 41621 3527 (.ofNat 1) 0)) .nil) .nil) .nil)) (.node (.node (.node (.node (.leaf (.mult 20177 3445 (.ofNat 1) 0)) .nil) .nil) .nil) (.node (.node (.node (.leaf (.trans [(2382137, .ofNat 1)] 0)) .nil) .nil) .nil))) (.node (.node .nil (.node (.node (.node (.leaf (.mult 42307 3684 (.ofNat 1) 0)) .nil) .nil) .nil)) (.node (.node (.node (.node (.leaf (.mult 35527 1359 (.ofNat 1) 0)) .nil) .nil) .nil) (.node (.node (.node (.leaf (.mult 42257 3677 (.ofNat 1) 0)) .nil) .nil) .nil))))) (.node (.node (.node (.node (.node (.node (.node (.leaf (.mult 3347 1343 (.ofNat 1) 0)) .nil) .nil) .nil) (.node (.node (.node (.leaf (.mult 2999 1565 (.negSucc 0) 0)) .nil) .nil) .nil)) (.node .nil (.node (.node (.node (.leaf (.trans [(11224673, .ofNat 1)] 0)) .nil) .nil) .nil))) (.node (.node (.node (.node (.node (.leaf (.mult 4409 3490 (.ofNat 1) 0)) .nil) .nil) .nil) (.node (.node (.node (.leaf (.trans [(4453529, .ofNat 1)] 0)) .nil) .nil) .nil)) (.node (.node (.node (.node (.leaf (.mult 13327 1361 (.ofNat 2) 1)) .nil) .nil) .nil) (.node (.node (.node (.leaf (.mult 32497 3363 (.ofNat 1) 0)) .nil) .nil) .nil)))) (.node (.node (.node .nil (.node (.node (.node (.leaf (.trans [(155325811, .negSucc 0)] 0)) .nil) .nil) .nil)) .nil) (.node (.node .nil (.node (.node (.node (.leaf (.mult 42349 3692 (.ofNat 1) 0)) .nil) .nil) .nil)) (.node .nil (.node (.node (.node (.leaf (.mult 42407 3708 (.ofNat 1) 0)) (.leaf (.trans [(1109, .ofNat 1)] 0))) .nil) .nil)))))) (.node (.node (.node (.node (.node .nil (.node (.node (.node (.leaf (.mult 35863 1655 (.ofNat 1) 0)) .nil) .nil) .nil)) (.node (.node (.node (.node (.leaf (.mult 16187 3386 (.ofNat 1) 0)) .nil) .nil) .nil) .nil)) (.node (.node .nil (.node (.node (.node (.leaf (.mult 32909 3592 (.ofNat 1) 0)) .nil) .nil) .nil)) .nil)) (.node (.node (.node (.node (.node (.node (.leaf (.trans [(237623, .ofNat 1)] 0)) .nil) .nil) .nil) (.node (.node (.node (.leaf (.mult 41681 3557 (.ofNat 1) 0)) .nil) .nil) .nil)) (.node .nil (.node (.node (.node (.leaf (.mult 12457 3446 (.ofNat 1) 0)) .nil) .nil) .nil))) (.node (.node .nil (.node (.node (.node (.leaf (.mult 33037 3685 (.ofNat 1) 0)) .nil) .nil) .nil)) (.node (.node (.node (.node (.leaf (.mult 10979 1390 (.ofNat 1) 0)) .nil) .nil) .nil) (.node (.node (.node (.leaf (.mult 8999 3360 (.ofNat 1) 0)) .nil) .nil) .nil))))) (.node (.node (.node (.node .nil (.node (.node (.node (.leaf (.mult 41611 3516 (.ofNat 1) 0)) .nil) .nil) .nil)) (.node (.node (.node (.node (.leaf (.mult 7853 3414 (.ofNat 1) 0)) .nil) .nil) .nil) (.node (.node (.node (.leaf (.trans [(2591723, .ofNat 1)] 0)) .nil) .nil) .nil))) (.node .nil (.node (.node (.node (.node (.leaf (.trans [(9161197, .ofNat 2)] 1)) .nil) .nil) .nil) (.node (.node (.node (.leaf (.mult 20347 3614 (.ofNat 1) 0)) .nil) .nil) .nil)))) (.node (.node (.node .nil (.node (.node (.node (.leaf (.mult 41911 3601 (.ofNat 1) 0)) .nil) .nil) .nil)) (.node (.node (.node (.node (.leaf (.trans [(3793631, .ofNat 1)] 0)) .nil) .nil) .nil) (.node (.node (.node (.leaf (.mult 41957 3608 (.ofNat 1) 0)) .nil) .nil) .nil))) (.node (.node (.node (.node (.node (.leaf (.trans [(378857, .negSucc 0)] 0)) .nil) .nil) .nil) (.node (.node (.node (.leaf (.mult 20431 3694 (.ofNat 1) 0)) .nil) .nil) .nil)) (.node (.node (.node (.node (.leaf (.trans [(42021893, .ofNat 1)] 0)) .nil) .nil) .nil) (.node (.node (.node (.leaf (.mult 46687 4946 (.ofNat 1) 0)) .nil) .nil) .nil))))))

def jac316 : JTree := .node (.node (.node (.node (.node (.node (.node (.node (.node (.leaf (.trans [(263, .ofNat 1)] 0)) .nil) .nil) .nil) (.node (.node (.node (.leaf (.trans [(2082373, .ofNat 1)] 0)) .nil) .nil) .nil)) (.node (.node (.node (.node (.leaf (.mult 4787 3382 (.ofNat 1) 0)) .nil) .nil) .nil) (.node (.node (.node (.leaf (.mult 26003 3390 (.ofNat 1) 0)) .nil) .nil) .nil))) (.node (.node .nil (.node (.node (.node (.leaf (.mult 41813 3583 (.ofNat 1) 0)) .nil) .nil) .nil)) (.node (.node (.node (.node (.leaf (.mult 41491 3480 (.ofNat 1) 0)) .nil) .nil) .nil) .nil))) (.node (.node (.node (.node (.node (.node (.leaf (.mult 4127 1404 (.ofNat 1) 0)) .nil) .nil) .nil) (.node (.node (.node (.leaf (.mult 41687 3558 (.ofNat 1) 0)) .nil) .nil) .nil)) (.node (.node (.node (.node (.leaf (.mult 26119 3448 (.ofNat 1) 0)) .nil) .nil) .nil) (.node (.node (.node (.leaf (.trans [(10698431, .ofNat 1)] 0)) .nil) .nil) .nil))) (.node .nil (.node .nil (.node (.node (.node (.leaf (.mult 20021 3358 (.ofNat 1) 0)) .nil) .nil) .nil))))) (.node (.node (.node (.node .nil (.node (.node (.node (.leaf (.trans [(88239803, .ofNat 1)] 0)) .nil) .nil) .nil)) (.node (.node (.node (.node (.leaf (.mult 41381 3409 (.ofNat 1) 0)) .nil) .nil) .nil) (.node (.node (.node (.leaf (.trans [(2794969, .ofNat 1)] 0)) .nil) .nil) .nil))) (.node .nil (.node (.node (.node (.node (.leaf (.mult 29297 1372 (.negSucc 1) 1)) .nil) .nil) .nil) (.node (.node (.node (.leaf (.mult 26209 3505 (.ofNat 1) 0)) .nil) .nil) .nil)))) (.node (.node (.node .nil (.node (.node (.node (.leaf (.mult 26407 3560 (.ofNat 1) 0)) .nil) .nil) .nil)) (.node (.node (.node (.node (.leaf (.trans [(2986147, .ofNat 1)] 0)) .nil) .nil) .nil) .nil)) (.node (.node (.node (.node (.node (.leaf (.trans [(151447, .negSucc 0), (151751, .ofNat 1)] 0)) .nil) .nil) .nil) (.node (.node (.node (.leaf (.mult 26437 3624 (.ofNat 1) 0)) .nil) .nil) .nil)) (.node .nil (.node (.node (.node (.leaf (.mult 32507 3374 (.ofNat 1) 0)) .nil) .nil) .nil)))))) (.node (.node (.node (.node (.node (.node (.node (.node (.leaf (.trans [(72851, .ofNat 1)] 0)) .nil) .nil) .nil) (.node (.node (.node (.leaf (.mult 3739 1438 (.negSucc 0) 0)) .nil) .nil) .nil)) (.node (.node (.node (.node (.leaf (.mult 4787 3382 (.ofNat 1) 0)) .nil) .nil) .nil) .nil)) (.node (.node (.node (.node (.node (.leaf (.trans [(87207641, .ofNat 1)] 0)) .nil) .nil) .nil) (.node (.node (.node (.leaf (.mult 20369 3618 (.negSucc 0) 0)) .nil) .nil) .nil)) (.node (.node (.node (.node (.leaf (.trans [(633071, .ofNat 1)] 0)) .nil) .nil) .nil) (.node (.node (.node (.leaf (.mult 25969 3364 (.ofNat 1) 0)) .nil) .nil) .nil)))) (.node (.node (.node (.node (.node (.node (.leaf (.trans [(119097761, .ofNat 1)] 0)) .nil) .nil) .nil) (.node (.node (.node (.leaf (.mult 41659 3549 (.ofNat 1) 0)) .nil) .nil) .nil)) (.node (.node (.node (.node (.leaf (.trans [(17208907, .negSucc 1)] 0)) .nil) .nil) .nil) (.node (.node (.node (.leaf (.trans [(13480297, .ofNat 1)] 0)) .nil) .nil) .nil))) (.node (.node .nil (.node (.node (.node (.leaf (.mult 32987 3664 (.ofNat 1) 0)) .nil) .nil) .nil)) (.node (.node (.node (.node (.leaf (.mult 17579 1449 (.ofNat 1) 0)) .nil) .nil) .nil) (.node (.node (.node (.leaf (.trans [(20411, .ofNat 1), (20431, .negSucc 0)] 0)) .nil) .nil) .nil))))) (.node (.node (.node (.node .nil (.node (.node (.node (.leaf (.mult 32647 3519 (.ofNat 1) 0)) .nil) .nil) .nil)) (.node (.node (.node (.node (.leaf (.mult 9013 3433 (.ofNat 1) 0)) .nil) .nil) .nil) (.node (.node (.node (.leaf (.trans [(14531017, .ofNat 1)] 0)) .nil) .nil) .nil))) (.node .nil (.node (.node (.node (.node (.leaf (.trans [(7204321, .negSucc 1)] 1)) .nil) .nil) .nil) (.node (.node (.node (.leaf (.mult 25999 3372 (.ofNat 1) 0)) .nil) .nil) .nil)))) (.node (.node (.node .nil (.node (.node (.node (.leaf (.mult 32783 3568 (.ofNat 1) 0)) .nil) .nil) .nil)) (.node (.node (.node (.node (.leaf (.mult 7873 3499 (.ofNat 1) 0)) .nil) .nil) .nil) .nil)) (.node (.node (.node (.node (.node (.leaf (.trans [(610145611, .ofNat 2)] 1)) .nil) .nil) .nil) (.node (.node (.node (.leaf (.trans [(35873941, .ofNat 1)] 0)) .nil) .nil) .nil)) (.node .nil (.node (.node (.node (.leaf (.mult 46301 4892 (.ofNat 1) 0)) .nil) .nil) .nil))))))

def jac317 : JTree := .node (.node (.node (.node (.node (.node (.node .nil (.node (.node (.leaf (.mult 42461 3719 (.negSucc 0) 0)) .nil) .nil)) .nil) (.node (.node (.node (.node (.leaf (.mult 17477 1353 (.ofNat 1) 0)) .nil) .nil) .nil) .nil)) (.node (.node .nil (.node (.node (.node (.leaf (.mult 32831 3580 (.ofNat 1) 0)) .nil) .nil) .nil)) (.node (.node (.node (.node (.leaf (.mult 26171 3473 (.ofNat 1) 0)) .nil) .nil) .nil) .nil))) (.node (.node (.node (.node (.node (.node (.leaf (.mult 2917 1339 (.negSucc 0) 0)) .nil) .nil) .nil) (.node (.node (.node (.leaf (.mult 5813 3536 (.ofNat 2) 1)) .nil) .nil) .nil)) (.node (.node (.node (.node (.leaf (.mult 26083 3440 (.ofNat 1) 0)) .nil) .nil) .nil) (.node (.node (.node (.leaf (.trans [(1024381, .ofNat 1)] 0)) .nil) .nil) .nil))) (.node (.node .nil (.node (.node (.node (.leaf (.mult 42179 3658 (.ofNat 1) 0)) .nil) .nil) .nil)) (.node (.node (.node (.node (.leaf (.mult 13367 1374 (.ofNat 1) 0)) .nil) .nil) .nil) (.node (.node (.node (.leaf (.mult 20411 3678 (.ofNat 1) 0)) .nil) .nil) .nil))))) (.node (.node (.node (.node (.node (.node (.node (.leaf (.mult 2287 1346 (.ofNat 2) 1)) .nil) .nil) .nil) (.node (.node (.node (.leaf (.mult 11159 1668 (.ofNat 1) 0)) .nil) .nil) .nil)) (.node (.node (.node (.node (.leaf (.mult 6317 3428 (.ofNat 1) 0)) .nil) .nil) .nil) (.node (.node (.node (.leaf (.trans [(505112369, .ofNat 1)] 0)) .nil) .nil) .nil))) (.node (.node (.node (.node (.node (.leaf (.trans [(87207641, .ofNat 1), (110969941, .ofNat 1)] 0)) .nil) .nil) .nil) (.node (.node (.node (.leaf (.mult 26449 3654 (.ofNat 1) 0)) .nil) .nil) .nil)) (.node (.node (.node (.node (.leaf (.mult 13381 1376 (.ofNat 2) 1)) .nil) .nil) .nil) (.node (.node (.node (.leaf (.trans [(1043844239, .ofNat 1)] 0)) .nil) .nil) .nil)))) (.node (.node (.node .nil (.node (.node (.node (.leaf (.mult 26297 3539 (.ofNat 1) 0)) .nil) .nil) .nil)) (.node (.node (.node (.node (.leaf (.mult 11897 3471 (.ofNat 1) 0)) .nil) .nil) .nil) .nil)) (.node (.node (.node (.node (.node (.leaf (.mult 15383 1416 (.ofNat 1) 0)) .nil) .nil) .nil) (.node (.node (.node (.leaf (.mult 42223 3669 (.ofNat 1) 0)) .nil) .nil) .nil)) (.node (.node (.node (.node (.leaf (.mult 35879 1660 (.ofNat 1) 0)) .nil) .nil) .nil) (.node (.node (.node (.leaf (.mult 42457 3717 (.ofNat 1) 0)) .nil) .nil) .nil)))))) (.node (.node (.node (.node (.node .nil (.node (.node (.node (.leaf (.mult 23173 1513 (.ofNat 1) 0)) .nil) .nil) .nil)) .nil) (.node (.node (.node (.node (.node (.leaf (.mult 3389 1444 (.ofNat 1) 0)) .nil) .nil) .nil) (.node (.node (.node (.leaf (.mult 41887 3596 (.ofNat 1) 0)) .nil) .nil) .nil)) (.node .nil (.node (.node (.node (.leaf (.mult 26489 3699 (.ofNat 1) 0)) .nil) .nil) .nil)))) (.node (.node (.node .nil (.node (.node (.node (.leaf (.mult 26321 3543 (.ofNat 1) 0)) .nil) .nil) .nil)) (.node (.node (.node (.node (.leaf (.mult 9029 3455 (.ofNat 1) 0)) .nil) .nil) .nil) .nil)) (.node (.node .nil (.node (.node (.node (.leaf (.mult 42323 3687 (.ofNat 1) 0)) .nil) .nil) .nil)) (.node (.node (.node (.node (.leaf (.mult 15329 1388 (.ofNat 1) 0)) .nil) .nil) .nil) (.node (.node (.node (.leaf (.mult 9007 3375 (.ofNat 1) 0)) .nil) .nil) .nil))))) (.node (.node (.node (.node .nil (.node (.node (.node (.leaf (.mult 41603 3514 (.negSucc 0) 0)) .nil) .nil) .nil)) (.node (.node (.node (.node (.leaf (.mult 7853 3414 (.negSucc 0) 0)) .nil) .nil) .nil) .nil)) (.node (.node .nil (.node (.node (.node (.leaf (.mult 42017 3628 (.ofNat 1) 0)) .nil) .nil) .nil)) (.node (.node (.node (.node (.leaf (.mult 23017 1377 (.negSucc 1) 1)) .nil) .nil) .nil) (.node (.node (.node (.leaf (.mult 14173 3641 (.ofNat 1) 0)) .nil) .nil) .nil)))) (.node (.node (.node .nil (.node (.node (.node (.leaf (.mult 41729 3564 (.ofNat 1) 0)) .nil) .nil) .nil)) (.node (.node (.node (.node (.leaf (.mult 6323 3489 (.ofNat 1) 0)) .nil) .nil) .nil) .nil)) (.node (.node (.node (.node (.node (.leaf (.mult 35531 1408 (.ofNat 1) 0)) .nil) .nil) .nil) (.node (.node (.node (.leaf (.mult 32533 3384 (.ofNat 1) 0)) .nil) .nil) .nil)) (.node (.node (.node (.node (.leaf (.mult 12163 1395 (.ofNat 1) 0)) .nil) .nil) .nil) (.node (.node (.node (.leaf (.mult 33029 3674 (.ofNat 1) 0)) .nil) .nil) .nil))))))

def jac318 : JTree := .node (.node (.node (.node (.node (.node .nil (.node (.node (.node (.leaf (.mult 29717 1652 (.ofNat 1) 0)) .nil) .nil) .nil)) (.node (.node (.node (.node (.leaf (.mult 14083 3378 (.negSucc 0) 0)) .nil) .nil) .nil) (.node (.node (.node (.leaf (.trans [(7750153, .ofNat 1)] 0)) .nil) .nil) .nil))) (.node (.node .nil (.node (.node (.node (.leaf (.mult 41851 3589 (.negSucc 1) 1)) .nil) .nil) .nil)) (.node (.node (.node (.node (.leaf (.trans [(10889251, .ofNat 1)] 0)) .nil) .nil) .nil) .nil))) (.node (.node (.node (.node (.node (.node (.leaf (.mult 3851 1418 (.ofNat 1) 0)) .nil) .nil) .nil) (.node (.node (.node (.leaf (.mult 26371 3551 (.ofNat 1) 0)) .nil) .nil) .nil)) (.node (.node (.node (.node (.leaf (.mult 9049 3460 (.ofNat 1) 0)) .nil) .nil) .nil) (.node (.node (.node (.leaf (.trans [(2832101, .ofNat 1)] 0)) .nil) .nil) .nil))) (.node (.node .nil (.node (.node (.node (.leaf (.mult 32957 3634 (.ofNat 1) 0)) .nil) .nil) .nil)) (.node (.node (.node (.node (.leaf (.mult 10987 1392 (.ofNat 1) 0)) .nil) .nil) .nil) (.node (.node (.node (.leaf (.mult 41263 3347 (.ofNat 1) 0)) .nil) .nil) .nil))))) (.node (.node (.node (.node .nil (.node (.node (.node (.leaf (.trans [(87498991, .negSucc 0)] 0)) .nil) .nil) .nil)) (.node (.node (.node (.node (.leaf (.mult 20101 3406 (.ofNat 1) 0)) .nil) .nil) .nil) (.node (.node (.node (.leaf (.trans [(1540769, .ofNat 1)] 0)) .nil) .nil) .nil))) (.node .nil (.node (.node (.node (.node (.leaf (.trans [(9181229, .ofNat 2)] 1)) .nil) .nil) .nil) (.node (.node (.node (.leaf (.mult 42071 3640 (.ofNat 1) 0)) .nil) .nil) .nil)))) (.node (.node (.node .nil (.node (.node (.node (.leaf (.mult 41903 3600 (.ofNat 1) 0)) .nil) .nil) .nil)) (.node (.node (.node (.node (.leaf (.trans [(14156281, .ofNat 1)] 0)) .nil) .nil) .nil) (.node (.node (.node (.leaf (.mult 12473 3469 (.ofNat 1) 0)) .nil) .nil) .nil))) (.node (.node (.node (.node (.node (.leaf (.mult 15413 1433 (.ofNat 1) 0)) .nil) .nil) .nil) (.node (.node (.node (.leaf (.mult 42157 3655 (.ofNat 1) 0)) .nil) .nil) .nil)) (.node (.node (.node (.node (.leaf (.mult 1873 1437 (.ofNat 1) 0)) .nil) .nil) .nil) (.node (.node (.node (.leaf (.mult 34963 4887 (.ofNat 1) 0)) (.leaf (.trans [(47189, .ofNat 1)] 0))) .nil) .nil)))))) (.node (.node (.node (.node (.node (.node (.node (.node (.leaf (.mult 811 1340 (.ofNat 1) 0)) .nil) .nil) .nil) (.node (.node (.node (.leaf (.mult 5009 1512 (.ofNat 1) 0)) .nil) .nil) .nil)) (.node .nil (.node (.node (.node (.leaf (.mult 20051 3393 (.ofNat 1) 0)) .nil) .nil) .nil))) (.node (.node .nil (.node (.node (.node (.leaf (.trans [(1778431, .ofNat 1)] 0)) .nil) .nil) .nil)) (.node (.node (.node (.node (.leaf (.mult 29287 1370 (.ofNat 1) 0)) .nil) .nil) .nil) (.node (.node (.node (.leaf (.mult 33083 3700 (.ofNat 1) 0)) .nil) .nil) .nil)))) (.node (.node (.node (.node (.node (.node (.leaf (.trans [(126756781, .ofNat 1)] 0)) .nil) .nil) .nil) (.node (.node (.node (.leaf (.mult 41627 3532 (.ofNat 1) 0)) .nil) .nil) .nil)) (.node (.node (.node (.node (.leaf (.mult 41411 3456 (.ofNat 1) 0)) .nil) .nil) .nil) .nil)) (.node (.node .nil (.node (.node (.node (.leaf (.mult 14159 3635 (.ofNat 1) 0)) .nil) .nil) .nil)) (.node .nil (.node (.node (.node (.leaf (.mult 42403 3706 (.ofNat 1) 0)) (.leaf (.trans [(15451, .ofNat 1)] 0))) .nil) .nil))))) (.node (.node (.node (.node .nil (.node (.node (.node (.leaf (.mult 32653 3523 (.ofNat 1) 0)) .nil) .nil) .nil)) (.node (.node (.node (.node (.leaf (.mult 20129 3424 (.ofNat 1) 0)) .nil) .nil) .nil) (.node (.node (.node (.leaf (.trans [(8684219, .ofNat 1)] 0)) .nil) .nil) .nil))) (.node .nil (.node (.node (.node (.node (.leaf (.trans [(7205573, .negSucc 1)] 1)) .nil) .nil) .nil) (.node (.node (.node (.leaf (.mult 19949 3335 (.ofNat 1) 0)) .nil) .nil) .nil)))) (.node (.node (.node .nil (.node (.node (.node (.leaf (.mult 32797 3571 (.ofNat 1) 0)) .nil) .nil) .nil)) (.node (.node (.node (.node (.leaf (.trans [(3307771, .ofNat 1), (4209071, .ofNat 1)] 0)) .nil) .nil) .nil) (.node (.node (.node (.leaf (.mult 42239 3676 (.ofNat 1) 0)) .nil) .nil) .nil))) (.node (.node (.node (.node (.node (.leaf (.trans [(729431789, .ofNat 2)] 1)) .nil) .nil) .nil) .nil) (.node (.node (.node (.node (.leaf (.mult 29663 1560 (.ofNat 1) 0)) .nil) .nil) .nil) (.node (.node (.node (.leaf (.mult 42089 3649 (.ofNat 1) 0)) .nil) .nil) .nil))))))

def jac319 : JTree := .node (.node (.node (.node (.node (.node (.node .nil (.node (.node (.leaf (.mult 47147 4991 (.ofNat 1) 0)) .nil) .nil)) (.node (.node (.node (.leaf (.mult 29339 1393 (.ofNat 1) 0)) .nil) .nil) .nil)) (.node (.node (.node (.node (.leaf (.trans [(15289, .ofNat 1), (15299, .ofNat 1)] 0)) .nil) .nil) .nil) (.node (.node (.node (.leaf (.trans [(16427053, .ofNat 1)] 0)) .nil) .nil) .nil))) (.node (.node .nil (.node (.node (.node (.leaf (.mult 32801 3575 (.ofNat 1) 0)) .nil) .nil) .nil)) (.node (.node (.node (.node (.leaf (.mult 9067 3496 (.ofNat 1) 0)) .nil) .nil) .nil) (.node (.node (.node (.leaf (.mult 41281 3362 (.ofNat 1) 0)) .nil) .nil) .nil)))) (.node (.node (.node .nil (.node (.node (.node (.leaf (.mult 26263 3526 (.ofNat 1) 0)) .nil) .nil) .nil)) (.node (.node (.node (.node (.leaf (.mult 20149 3437 (.ofNat 1) 0)) .nil) .nil) .nil) (.node (.node (.node (.leaf (.mult 12433 3338 (.ofNat 1) 0)) .nil) .nil) .nil))) (.node (.node .nil (.node (.node (.node (.leaf (.mult 41999 3626 (.ofNat 1) 0)) .nil) .nil) .nil)) (.node (.node (.node (.node (.leaf (.trans [(598769, .ofNat 2)] 1)) .nil) .nil) .nil) (.node (.node (.node (.leaf (.mult 19979 3343 (.ofNat 1) 0)) .nil) .nil) .nil))))) (.node (.node (.node (.node (.node (.node (.node (.leaf (.mult 3517 1344 (.ofNat 1) 0)) .nil) .nil) .nil) (.node (.node (.node (.leaf (.mult 2971 1564 (.ofNat 1) 0)) .nil) .nil) .nil)) (.node (.node (.node (.node (.leaf (.mult 32569 3400 (.negSucc 0) 0)) .nil) .nil) .nil) (.node (.node (.node (.leaf (.mult 32579 3429 (.ofNat 1) 0)) .nil) .nil) .nil))) (.node (.node (.node (.node (.node (.leaf (.mult 4297 3348 (.ofNat 1) 0)) .nil) .nil) .nil) (.node (.node (.node (.leaf (.trans [(1779629, .ofNat 1)] 0)) .nil) .nil) .nil)) (.node (.node (.node (.node (.leaf (.mult 13313 1356 (.ofNat 2) 1)) .nil) .nil) .nil) .nil))) (.node (.node (.node (.node (.node (.node (.leaf (.mult 6571 1406 (.ofNat 1) 0)) .nil) .nil) .nil) (.node (.node (.node (.leaf (.mult 32707 3534 (.negSucc 0) 0)) .nil) .nil) .nil)) .nil) (.node (.node .nil (.node (.node (.node (.leaf (.mult 42043 3636 (.ofNat 1) 0)) .nil) .nil) .nil)) (.node (.node (.node (.node (.leaf (.mult 23029 1427 (.ofNat 1) 0)) .nil) .nil) .nil) (.node (.node (.node (.leaf (.mult 16339 3707 (.ofNat 1) 0)) (.leaf (.mult 1109 1566 (.ofNat 1) 0))) .nil) .nil)))))) (.node (.node (.node (.node (.node .nil (.node (.node (.node (.leaf (.mult 35839 1653 (.ofNat 1) 0)) .nil) .nil) .nil)) (.node (.node (.node (.node (.leaf (.trans [(49675273, .ofNat 1)] 0)) .nil) .nil) .nil) .nil)) (.node (.node .nil (.node (.node (.node (.leaf (.mult 41863 3591 (.ofNat 1) 0)) .nil) .nil) .nil)) (.node (.node (.node (.node (.leaf (.mult 14143 3484 (.ofNat 1) 0)) .nil) .nil) .nil) (.node (.node (.node (.leaf (.mult 26189 3502 (.ofNat 1) 0)) .nil) .nil) .nil)))) (.node (.node (.node (.node (.node (.node (.leaf (.trans [(382951, .ofNat 1)] 0)) .nil) .nil) .nil) (.node (.node (.node (.leaf (.mult 26393 3556 (.ofNat 1) 0)) .nil) .nil) .nil)) (.node .nil (.node (.node (.node (.leaf (.mult 20161 3438 (.ofNat 1) 0)) .nil) .nil) .nil))) (.node (.node .nil (.node (.node (.node (.leaf (.mult 33053 3688 (.ofNat 1) 0)) .nil) .nil) .nil)) (.node (.node (.node (.node (.leaf (.mult 17489 1410 (.ofNat 1) 0)) .nil) .nil) .nil) (.node (.node (.node (.leaf (.mult 9109 3711 (.ofNat 1) 0)) .nil) .nil) .nil))))) (.node (.node (.node (.node .nil (.node (.node (.node (.leaf (.mult 26237 3513 (.ofNat 1) 0)) .nil) .nil) .nil)) (.node (.node (.node (.node (.leaf (.mult 7411 3413 (.ofNat 1) 0)) .nil) .nil) .nil) .nil)) (.node .nil (.node (.node (.node (.node (.leaf (.trans [(9169961, .negSucc 1)] 1)) .nil) .nil) .nil) (.node (.node (.node (.leaf (.mult 14177 3642 (.ofNat 1) 0)) .nil) .nil) .nil)))) (.node (.node (.node .nil (.node (.node (.node (.leaf (.mult 41927 3602 (.ofNat 1) 0)) .nil) .nil) .nil)) (.node (.node (.node (.node (.leaf (.mult 14149 3485 (.ofNat 1) 0)) .nil) .nil) .nil) (.node (.node (.node (.leaf (.mult 41579 3508 (.ofNat 1) 0)) .nil) .nil) .nil))) (.node (.node (.node (.node (.node (.leaf (.trans [(415733, .negSucc 0)] 0)) .nil) .nil) .nil) (.node (.node (.node (.leaf (.mult 20393 3639 (.ofNat 1) 0)) .nil) .nil) .nil)) (.node .nil (.node (.node (.node (.leaf (.mult 35159 4945 (.ofNat 1) 0)) .nil) .nil) .nil))))))

def jac320 : JTree := .node (.node (.node (.node (.node (.node (.node (.node (.node (.leaf (.trans [(269, .negSucc 0)] 0)) .nil) .nil) (.node (.node (.leaf (.mult 47189 4994 (.negSucc 0) 0)) .nil) .nil)) .nil) (.node (.node (.node (.node (.leaf (.trans [(664291, .negSucc 0)] 0)) .nil) .nil) .nil) (.node (.node (.node (.leaf (.trans [(21305827, .ofNat 1)] 0)) .nil) .nil) .nil))) (.node (.node .nil (.node (.node (.node (.leaf (.mult 32839 3584 (.negSucc 1) 1)) .nil) .nil) .nil)) (.node (.node (.node (.node (.leaf (.mult 41467 3476 (.ofNat 1) 0)) .nil) .nil) .nil) .nil))) (.node (.node (.node (.node (.node (.node (.leaf (.mult 4129 1419 (.ofNat 1) 0)) .nil) .nil) .nil) (.node (.node (.node (.leaf (.trans [(1706685397, .ofNat 2)] 1)) .nil) .nil) .nil)) (.node (.node (.node (.node (.leaf (.mult 26153 3450 (.ofNat 1) 0)) .nil) .nil) .nil) .nil)) (.node .nil (.node .nil (.node (.node (.node (.leaf (.mult 41299 3365 (.ofNat 1) 0)) .nil) .nil) .nil))))) (.node (.node (.node (.node .nil (.node (.node (.node (.leaf (.mult 20287 3563 (.ofNat 1) 0)) .nil) .nil) .nil)) (.node (.node (.node (.node (.leaf (.mult 41357 3408 (.ofNat 1) 0)) .nil) .nil) .nil) (.node (.node (.node (.leaf (.trans [(2777471, .ofNat 1)] 0)) .nil) .nil) .nil))) (.node (.node (.node (.node (.node (.leaf (.trans [(140910439, .ofNat 1)] 0)) .nil) .nil) .nil) (.node (.node (.node (.leaf (.trans [(4453529, .negSucc 0)] 0)) .nil) .nil) .nil)) (.node (.node (.node (.node (.leaf (.mult 29311 1378 (.negSucc 1) 1)) .nil) .nil) .nil) .nil))) (.node (.node (.node .nil (.node (.node (.node (.leaf (.mult 26399 3559 (.ofNat 1) 0)) .nil) .nil) .nil)) (.node (.node (.node (.node (.leaf (.mult 26161 3472 (.ofNat 1) 0)) .nil) .nil) .nil) .nil)) (.node (.node (.node (.node (.node (.leaf (.trans [(150173, .negSucc 0), (24132259, .negSucc 0), (33115783, .ofNat 1)] 0)) .nil) .nil) .nil) (.node (.node (.node (.leaf (.mult 41981 3623 (.ofNat 1) 0)) .nil) .nil) .nil)) (.node (.node (.node (.node (.leaf (.mult 17569 1436 (.ofNat 1) 0)) .nil) .nil) .nil) (.node (.node (.node (.leaf (.mult 6907 3718 (.ofNat 1) 0)) (.leaf (.trans [(2411, .ofNat 1)] 0))) .nil) .nil)))))) (.node (.node (.node (.node (.node (.node (.node (.node (.leaf (.trans [(74429, .ofNat 1)] 0)) .nil) .nil) .nil) (.node (.node (.node (.leaf (.mult 23567 1665 (.ofNat 1) 0)) .nil) .nil) .nil)) (.node (.node (.node (.node (.leaf (.mult 20047 3392 (.ofNat 1) 0)) .nil) .nil) .nil) .nil)) (.node (.node (.node (.node (.node (.leaf (.trans [(347549, .ofNat 1)] 0)) .nil) .nil) .nil) (.node (.node (.node (.leaf (.mult 20353 3615 (.negSucc 0) 0)) .nil) .nil) .nil)) .nil)) (.node (.node (.node (.node (.node (.node (.leaf (.trans [(432617, .ofNat 1)] 0)) .nil) .nil) .nil) (.node (.node (.node (.leaf (.mult 26347 3548 (.ofNat 1) 0)) .nil) .nil) .nil)) (.node (.node (.node (.node (.leaf (.mult 41443 3464 (.ofNat 1) 0)) .nil) .nil) .nil) .nil)) (.node (.node .nil (.node (.node (.node (.leaf (.mult 32983 3663 (.ofNat 1) 0)) .nil) .nil) .nil)) (.node (.node (.node (.node (.leaf (.mult 15319 1354 (.ofNat 1) 0)) .nil) .nil) .nil) (.node (.node (.node (.leaf (.trans [(20389, .ofNat 1), (20393, .negSucc 0)] 0)) .nil) .nil) .nil))))) (.node (.node (.node (.node .nil (.node (.node (.node (.leaf (.mult 32633 3518 (.ofNat 1) 0)) .nil) .nil) .nil)) (.node (.node (.node (.node (.leaf (.mult 10303 3405 (.negSucc 0) 0)) .nil) .nil) .nil) (.node (.node (.node (.leaf (.trans [(5792399, .ofNat 1)] 0)) .nil) .nil) .nil))) (.node (.node .nil (.node (.node (.node (.leaf (.trans [(3152231, .ofNat 1)] 0)) .nil) .nil) .nil)) (.node (.node (.node (.node (.leaf (.trans [(7190549, .negSucc 1)] 1)) .nil) .nil) .nil) (.node (.node (.node (.leaf (.mult 42397 3703 (.ofNat 1) 0)) .nil) .nil) .nil)))) (.node (.node (.node .nil (.node (.node (.node (.leaf (.mult 41737 3567 (.ofNat 1) 0)) .nil) .nil) .nil)) (.node (.node (.node (.node (.leaf (.trans [(3956707, .ofNat 1)] 0)) .nil) .nil) .nil) (.node (.node (.node (.leaf (.mult 41543 3501 (.ofNat 1) 0)) .nil) .nil) .nil))) (.node (.node (.node (.node (.node (.leaf (.mult 35521 1352 (.ofNat 1) 0)) .nil) .nil) .nil) .nil) (.node (.node (.node (.node (.leaf (.mult 29483 1510 (.ofNat 1) 0)) .nil) .nil) .nil) (.node (.node (.node (.leaf (.mult 34981 4890 (.ofNat 1) 0)) .nil) .nil) .nil))))))

def jac321 : JTree := .node (.node (.node (.node (.node (.node (.node .nil (.node (.node (.leaf (.mult 47161 4993 (.ofNat 1) 0)) .nil) .nil)) (.node (.node (.node (.leaf (.trans [(30460453, .ofNat 1)] 0)) .nil) .nil) .nil)) (.node (.node (.node (.node (.leaf (.mult 15373 1409 (.ofNat 1) 0)) .nil) .nil) .nil) (.node (.node (.node (.leaf (.trans [(14994671, .ofNat 1)] 0)) .nil) .nil) .nil))) (.node (.node .nil (.node (.node (.node (.leaf (.mult 41801 3579 (.ofNat 1) 0)) .nil) .nil) .nil)) (.node (.node (.node (.node (.leaf (.trans [(19887277, .ofNat 1)] 0)) .nil) .nil) .nil) (.node (.node (.node (.leaf (.mult 42101 3650 (.ofNat 1) 0)) .nil) .nil) .nil)))) (.node (.node (.node (.node (.node (.node (.leaf (.mult 811 1340 (.negSucc 0) 0)) .nil) .nil) .nil) (.node (.node (.node (.leaf (.mult 3557 3530 (.ofNat 1) 0)) .nil) .nil) .nil)) (.node (.node (.node (.node (.leaf (.mult 26099 3441 (.ofNat 1) 0)) .nil) .nil) .nil) (.node (.node (.node (.leaf (.trans [(5366381, .ofNat 1)] 0)) .nil) .nil) .nil))) (.node (.node .nil (.node (.node (.node (.leaf (.mult 42187 3660 (.ofNat 1) 0)) .nil) .nil) .nil)) (.node (.node (.node (.node (.leaf (.mult 6553 1364 (.ofNat 1) 0)) .nil) .nil) .nil) (.node (.node (.node (.leaf (.mult 14081 3373 (.ofNat 1) 0)) .nil) .nil) .nil))))) (.node (.node (.node (.node (.node (.node (.node (.leaf (.mult 1913 1350 (.ofNat 2) 1)) .nil) .nil) .nil) (.node (.node (.node (.leaf (.mult 11131 1666 (.negSucc 0) 0)) .nil) .nil) .nil)) (.node (.node (.node (.node (.leaf (.mult 6899 3426 (.ofNat 1) 0)) .nil) .nil) .nil) (.node (.node (.node (.leaf (.trans [(5477807, .ofNat 1)] 0)) .nil) .nil) .nil))) (.node (.node (.node (.node (.node (.leaf (.trans [(347549, .ofNat 1), (442249, .ofNat 1)] 0)) .nil) .nil) .nil) .nil) (.node (.node (.node (.node (.leaf (.mult 13399 1381 (.ofNat 2) 1)) .nil) .nil) .nil) (.node (.node (.node (.leaf (.mult 32621 3504 (.ofNat 1) 0)) .nil) .nil) .nil)))) (.node (.node (.node .nil (.node (.node (.node (.leaf (.mult 41641 3538 (.ofNat 1) 0)) .nil) .nil) .nil)) .nil) (.node (.node .nil (.node (.node (.node (.leaf (.mult 32999 3670 (.ofNat 1) 0)) .nil) .nil) .nil)) (.node .nil (.node (.node (.node (.leaf (.mult 16273 3643 (.ofNat 1) 0)) (.leaf (.trans [(683, .ofNat 1)] 0))) .nil) .nil)))))) (.node (.node (.node (.node (.node .nil (.node (.node (.node (.leaf (.mult 23039 1430 (.ofNat 1) 0)) .nil) .nil) .nil)) (.node (.node (.node (.node (.leaf (.mult 9011 3388 (.ofNat 1) 0)) .nil) .nil) .nil) .nil)) (.node (.node (.node (.node (.node (.leaf (.mult 4133 1420 (.ofNat 1) 0)) .nil) .nil) .nil) (.node (.node (.node (.leaf (.mult 32917 3595 (.ofNat 1) 0)) .nil) .nil) .nil)) (.node .nil (.node (.node (.node (.leaf (.mult 26227 3506 (.ofNat 1) 0)) .nil) .nil) .nil)))) (.node (.node (.node .nil (.node (.node (.node (.leaf (.mult 26317 3542 (.ofNat 1) 0)) .nil) .nil) .nil)) (.node (.node (.node (.node (.leaf (.mult 41399 3454 (.negSucc 0) 0)) .nil) .nil) .nil) (.node (.node (.node (.leaf (.trans [(11385137, .ofNat 1)] 0)) .nil) .nil) .nil))) (.node (.node .nil (.node (.node (.node (.leaf (.mult 33071 3690 (.ofNat 1) 0)) .nil) .nil) .nil)) (.node (.node (.node (.node (.leaf (.mult 15349 1394 (.ofNat 1) 0)) .nil) .nil) .nil) (.node (.node (.node (.leaf (.mult 9127 3712 (.ofNat 1) 0)) .nil) .nil) .nil))))) (.node (.node (.node (.node .nil (.node (.node (.node (.leaf (.trans [(10443859, .negSucc 0)] 0)) .nil) .nil) .nil)) (.node (.node (.node (.node (.leaf (.mult 9839 3417 (.ofNat 1) 0)) .nil) .nil) .nil) (.node (.node (.node (.leaf (.trans [(6940649, .ofNat 1)] 0)) .nil) .nil) .nil))) (.node .nil (.node (.node (.node (.node (.leaf (.mult 23003 1367 (.negSucc 1) 1)) .nil) .nil) .nil) (.node (.node (.node (.leaf (.mult 14207 3702 (.ofNat 1) 0)) .nil) .nil) .nil)))) (.node (.node .nil (.node (.node (.node (.node (.leaf (.mult 4523 3493 (.ofNat 1) 0)) .nil) .nil) .nil) (.node (.node (.node (.leaf (.trans [(4949969, .ofNat 1)] 0)) .nil) .nil) .nil))) (.node (.node (.node (.node (.node (.leaf (.mult 15443 1447 (.ofNat 1) 0)) .nil) .nil) .nil) (.node (.node (.node (.leaf (.mult 32561 3389 (.ofNat 1) 0)) .nil) .nil) .nil)) (.node (.node (.node (.node (.leaf (.trans [(43480211, .ofNat 1)] 0)) .nil) .nil) .nil) (.node (.node (.node (.leaf (.mult 33013 3672 (.ofNat 1) 0)) .nil) .nil) .nil))))))

def jac322 : JTree := .node (.node (.node (.node (.node (.node .nil (.node (.node (.node (.leaf (.mult 29641 1559 (.ofNat 1) 0)) .nil) .nil) .nil)) (.node (.node (.node (.node (.leaf (.trans [(48622087, .negSucc 0)] 0)) .nil) .nil) .nil) (.node (.node (.node (.leaf (.trans [(14814733, .ofNat 1)] 0)) .nil) .nil) .nil))) (.node (.node .nil (.node (.node (.node (.leaf (.mult 32843 3587 (.ofNat 1) 0)) .nil) .nil) .nil)) (.node (.node (.node (.node (.leaf (.trans [(12776909, .ofNat 1)] 0)) .nil) .nil) .nil) .nil))) (.node (.node (.node (.node (.node (.node (.leaf (.mult 947 1397 (.ofNat 1) 0)) .nil) .nil) .nil) (.node (.node (.node (.leaf (.mult 26357 3550 (.ofNat 1) 0)) .nil) .nil) .nil)) (.node (.node (.node (.node (.leaf (.mult 20183 3451 (.ofNat 1) 0)) .nil) .nil) .nil) (.node (.node (.node (.leaf (.trans [(2836411, .ofNat 1)] 0)) .nil) .nil) .nil))) (.node (.node .nil (.node (.node (.node (.leaf (.mult 42023 3633 (.ofNat 1) 0)) .nil) .nil) .nil)) (.node (.node (.node (.node (.leaf (.mult 11003 1434 (.ofNat 1) 0)) .nil) .nil) .nil) (.node (.node (.node (.leaf (.mult 8971 3345 (.ofNat 1) 0)) .nil) .nil) .nil))))) (.node (.node (.node (.node .nil (.node (.node (.node (.leaf (.trans [(85456213, .negSucc 0)] 0)) .nil) .nil) .nil)) (.node (.node (.node (.node (.leaf (.mult 10303 3405 (.ofNat 1) 0)) .nil) .nil) .nil) (.node (.node (.node (.leaf (.trans [(1404101, .ofNat 1)] 0)) .nil) .nil) .nil))) (.node .nil (.node (.node (.node (.node (.leaf (.trans [(9146173, .ofNat 2)] 1)) .nil) .nil) .nil) (.node (.node (.node (.leaf (.mult 26417 3609 (.ofNat 1) 0)) (.leaf (.trans [(1, .ofNat 1)] 0))) .nil) .nil)))) (.node (.node (.node .nil (.node (.node (.node (.leaf (.mult 41897 3599 (.ofNat 1) 0)) .nil) .nil) .nil)) (.node (.node (.node (.node (.leaf (.trans [(12372103, .ofNat 1)] 0)) .nil) .nil) .nil) (.node (.node (.node (.leaf (.mult 20231 3468 (.ofNat 1) 0)) .nil) .nil) .nil))) (.node (.node (.node (.node (.node (.leaf (.trans [(4243, .ofNat 1), (172967, .negSucc 0)] 0)) .nil) .nil) .nil) (.node (.node (.node (.leaf (.mult 26479 3681 (.ofNat 1) 0)) .nil) .nil) .nil)) (.node (.node (.node (.node (.leaf (.mult 35899 1662 (.ofNat 1) 0)) .nil) .nil) .nil) (.node (.node (.node (.leaf (.mult 41351 3377 (.ofNat 1) 0)) (.leaf (.trans [(46727, .negSucc 0)] 0))) .nil) .nil)))))) (.node (.node (.node (.node (.node (.node (.node (.node (.leaf (.mult 2237 1342 (.ofNat 1) 0)) .nil) .nil) .nil) (.node (.node (.node (.leaf (.mult 5021 1517 (.negSucc 0) 0)) .nil) .nil) .nil)) (.node (.node (.node (.node (.leaf (.mult 26021 3396 (.negSucc 0) 0)) .nil) .nil) .nil) (.node (.node (.node (.leaf (.mult 26041 3402 (.ofNat 1) 0)) .nil) .nil) .nil))) (.node (.node (.node (.node (.node (.leaf (.trans [(104316497, .ofNat 1)] 0)) .nil) .nil) .nil) (.node (.node (.node (.leaf (.mult 26423 3612 (.negSucc 0) 0)) .nil) .nil) .nil)) (.node (.node (.node (.node (.leaf (.mult 29303 1375 (.ofNat 1) 0)) .nil) .nil) .nil) (.node (.node (.node (.leaf (.mult 26203 3503 (.ofNat 1) 0)) .nil) .nil) .nil)))) (.node (.node (.node (.node (.node (.node (.leaf (.mult 5531 1446 (.ofNat 1) 0)) .nil) .nil) .nil) (.node (.node (.node (.leaf (.trans [(1325243981, .negSucc 0)] 0)) .nil) .nil) .nil)) (.node (.node (.node (.node (.leaf (.trans [(8240201, .ofNat 2)] 0)) .nil) .nil) .nil) .nil)) (.node (.node .nil (.node (.node (.node (.leaf (.trans [(67591, .ofNat 1), (182113, .ofNat 1)] 0)) .nil) .nil) .nil)) (.node (.node (.node (.node (.leaf (.mult 15439 1440 (.ofNat 1) 0)) .nil) .nil) .nil) (.node (.node (.node (.leaf (.mult 16333 3705 (.ofNat 1) 0)) (.leaf (.mult 15451 1451 (.ofNat 1) 0))) .nil) .nil))))) (.node (.node (.node (.node .nil (.node (.node (.node (.leaf (.mult 41617 3522 (.ofNat 1) 0)) .nil) .nil) .nil)) (.node (.node (.node (.node (.leaf (.mult 20123 3423 (.ofNat 1) 0)) .nil) .nil) .nil) (.node (.node (.node (.leaf (.mult 20143 3430 (.ofNat 1) 0)) .nil) .nil) .nil))) (.node .nil (.node (.node (.node (.node (.leaf (.trans [(7202443, .ofNat 2)] 1)) .nil) .nil) .nil) (.node (.node (.node (.leaf (.mult 19961 3337 (.ofNat 1) 0)) .nil) .nil) .nil)))) (.node (.node (.node .nil (.node (.node (.node (.leaf (.mult 41761 3572 (.negSucc 1) 1)) .nil) .nil) .nil)) (.node (.node (.node (.node (.leaf (.mult 41521 3494 (.ofNat 1) 0)) .nil) .nil) .nil) .nil)) (.node (.node (.node (.node (.node (.leaf (.mult 15299 1347 (.ofNat 1) 0)) .nil) .nil) .nil) (.node (.node (.node (.leaf (.trans [(15676307, .ofNat 1)] 0)) .nil) .nil) .nil)) (.node (.node (.node (.node (.leaf (.mult 23167 1511 (.ofNat 1) 0)) .nil) .nil) .nil) (.node (.node (.node (.leaf (.mult 47149 4992 (.ofNat 1) 0)) .nil) .nil) .nil))))))

def jac323 : JTree := .node (.node (.node (.node (.node (.node (.node .nil (.node (.node (.leaf (.mult 46307 4893 (.ofNat 1) 0)) .nil) .nil)) (.node (.node (.node (.leaf (.trans [(2016683, .ofNat 1)] 0)) .nil) .nil) .nil)) (.node (.node (.node (.node (.leaf (.trans [(15307, .ofNat 1), (15313, .ofNat 1)] 0)) .nil) .nil) .nil) .nil)) (.node (.node .nil (.node (.node (.node (.leaf (.mult 32803 3576 (.negSucc 0) 0)) .nil) .nil) .nil)) (.node (.node (.node (.node (.leaf (.mult 41479 3478 (.ofNat 1) 0)) .nil) .nil) .nil) (.node (.node (.node (.leaf (.mult 19997 3354 (.ofNat 1) 0)) .nil) .nil) .nil)))) (.node (.node (.node (.node (.node (.node (.leaf (.trans [(19564639, .negSucc 0)] 0)) .nil) .nil) .nil) (.node (.node (.node (.leaf (.mult 7417 3529 (.ofNat 1) 0)) .nil) .nil) .nil)) (.node (.node (.node (.node (.leaf (.mult 20147 3436 (.ofNat 1) 0)) .nil) .nil) .nil) (.node (.node (.node (.leaf (.trans [(2379551, .ofNat 1)] 0)) .nil) .nil) .nil))) (.node (.node .nil (.node (.node (.node (.leaf (.mult 42293 3682 (.ofNat 1) 0)) .nil) .nil) .nil)) (.node (.node (.node (.node (.leaf (.mult 6563 1384 (.ofNat 1) 0)) .nil) .nil) .nil) (.node (.node (.node (.leaf (.mult 14221 3704 (.ofNat 1) 0)) .nil) .nil) .nil))))) (.node (.node (.node (.node (.node (.node (.node (.leaf (.mult 1223 1345 (.ofNat 1) 0)) .nil) .nil) .nil) (.node (.node (.node (.leaf (.mult 3229 1588 (.negSucc 0) 0)) .nil) .nil) .nil)) (.node (.node (.node (.node (.leaf (.mult 26029 3401 (.ofNat 1) 0)) .nil) .nil) .nil) (.node (.node (.node (.leaf (.trans [(5446151, .ofNat 1)] 0)) .nil) .nil) .nil))) (.node (.node .nil (.node (.node (.node (.leaf (.trans [(1494413, .ofNat 1)] 0)) .nil) .nil) .nil)) (.node (.node (.node (.node (.leaf (.mult 13339 1371 (.ofNat 2) 1)) .nil) .nil) .nil) (.node (.node (.node (.leaf (.trans [(4510901, .ofNat 1)] 0)) .nil) .nil) .nil)))) (.node (.node (.node .nil (.node (.node (.node (.leaf (.mult 26267 3535 (.ofNat 1) 0)) .nil) .nil) .nil)) (.node (.node (.node (.node (.leaf (.trans [(10631983, .ofNat 1)] 0)) .nil) .nil) .nil) .nil)) (.node (.node .nil (.node (.node (.node (.leaf (.mult 33073 3693 (.ofNat 1) 0)) .nil) .nil) .nil)) (.node (.node (.node (.node (.leaf (.mult 35911 1663 (.ofNat 1) 0)) .nil) .nil) .nil) (.node (.node (.node (.leaf (.mult 16301 3647 (.ofNat 1) 0)) .nil) .nil) .nil)))))) (.node (.node (.node (.node (.node .nil (.node (.node (.node (.leaf (.mult 35851 1654 (.ofNat 1) 0)) .nil) .nil) .nil)) (.node (.node (.node (.node (.leaf (.mult 16189 3387 (.negSucc 1) 0)) .nil) .nil) .nil) (.node (.node (.node (.leaf (.trans [(14832469, .ofNat 1)] 0)) .nil) .nil) .nil))) (.node (.node .nil (.node (.node (.node (.leaf (.mult 32911 3593 (.ofNat 1) 0)) .nil) .nil) .nil)) (.node .nil (.node (.node (.node (.leaf (.mult 16141 3351 (.ofNat 1) 0)) .nil) .nil) .nil)))) (.node (.node (.node .nil (.node (.node (.node (.leaf (.mult 32713 3544 (.ofNat 1) 0)) .nil) .nil) .nil)) (.node .nil (.node (.node (.node (.leaf (.mult 32609 3467 (.ofNat 1) 0)) .nil) .nil) .nil))) (.node (.node .nil (.node (.node (.node (.leaf (.mult 33049 3686 (.ofNat 1) 0)) .nil) .nil) .nil)) (.node (.node (.node (.node (.leaf (.mult 17573 1448 (.ofNat 1) 0)) .nil) .nil) .nil) (.node (.node (.node (.leaf (.mult 9001 3370 (.ofNat 1) 0)) .nil) .nil) .nil))))) (.node (.node (.node (.node .nil (.node (.node (.node (.leaf (.trans [(10444361, .ofNat 1)] 0)) .nil) .nil) .nil)) (.node (.node (.node (.node (.leaf (.mult 20113 3415 (.ofNat 1) 0)) .nil) .nil) .nil) (.node (.node (.node (.leaf (.trans [(2785547, .ofNat 1)] 0)) .nil) .nil) .nil))) (.node .nil (.node (.node (.node (.node (.leaf (.mult 22973 1357 (.negSucc 1) 1)) .nil) .nil) .nil) (.node (.node (.node (.leaf (.mult 20359 3617 (.ofNat 1) 0)) .nil) .nil) .nil)))) (.node (.node (.node .nil (.node (.node (.node (.leaf (.mult 41947 3604 (.ofNat 1) 0)) .nil) .nil) .nil)) (.node (.node (.node (.node (.leaf (.trans [(4778771, .ofNat 1)] 0)) .nil) .nil) .nil) .nil)) (.node (.node (.node (.node (.node (.leaf (.mult 15313 1351 (.ofNat 1) 0)) .nil) .nil) .nil) (.node (.node (.node (.leaf (.mult 20407 3671 (.ofNat 1) 0)) .nil) .nil) .nil)) (.node (.node (.node (.node (.leaf (.mult 12161 1386 (.ofNat 1) 0)) .nil) .nil) .nil) (.node (.node (.node (.leaf (.mult 47143 4990 (.ofNat 1) 0)) .nil) .nil) .nil))))))

def jac324 : JTree := .node (.node (.node (.node (.node (.node .nil (.node (.node (.node (.leaf (.mult 29527 1516 (.ofNat 1) 0)) .nil) .nil) .nil)) (.node (.node (.node (.node (.leaf (.mult 5807 3383 (.ofNat 1) 0)) .nil) .nil) .nil) (.node (.node (.node (.leaf (.mult 20063 3394 (.ofNat 1) 0)) .nil) .nil) .nil))) (.node (.node .nil (.node (.node (.node (.leaf (.mult 41843 3585 (.ofNat 1) 0)) .nil) .nil) .nil)) (.node (.node (.node (.node (.leaf (.mult 41513 3483 (.ofNat 1) 0)) .nil) .nil) .nil) .nil))) (.node (.node (.node (.node (.node (.node (.leaf (.mult 4153 1443 (.ofNat 1) 0)) .nil) .nil) .nil) (.node (.node (.node (.leaf (.mult 32719 3552 (.ofNat 1) 0)) .nil) .nil) .nil)) (.node (.node (.node (.node (.leaf (.mult 26141 3449 (.ofNat 1) 0)) .nil) .nil) .nil) (.node (.node (.node (.leaf (.mult 19963 3339 (.ofNat 1) 0)) .nil) .nil) .nil))) (.node (.node .nil (.node (.node (.node (.leaf (.mult 32939 3630 (.ofNat 1) 0)) .nil) .nil) .nil)) (.node .nil (.node (.node (.node (.leaf (.mult 20011 3355 (.ofNat 1) 0)) .nil) .nil) .nil))))) (.node (.node (.node (.node .nil (.node (.node (.node (.leaf (.trans [(90349121, .ofNat 1)] 0)) .nil) .nil) .nil)) (.node (.node (.node (.node (.leaf (.mult 20107 3410 (.ofNat 1) 0)) .nil) .nil) .nil) (.node (.node (.node (.leaf (.trans [(257726023, .ofNat 1)] 0)) .nil) .nil) .nil))) (.node .nil (.node (.node (.node (.node (.leaf (.mult 29221 1358 (.ofNat 2) 1)) .nil) .nil) .nil) (.node (.node (.node (.leaf (.mult 42391 3701 (.ofNat 1) 0)) .nil) .nil) .nil)))) (.node (.node (.node .nil (.node (.node (.node (.leaf (.mult 41719 3561 (.ofNat 1) 0)) .nil) .nil) .nil)) (.node (.node (.node (.node (.leaf (.mult 26177 3474 (.ofNat 1) 0)) .nil) .nil) .nil) .nil)) (.node (.node (.node (.node (.node (.leaf (.mult 15307 1349 (.ofNat 1) 0)) .nil) .nil) .nil) (.node (.node (.node (.leaf (.mult 42281 3679 (.ofNat 1) 0)) .nil) .nil) .nil)) (.node (.node (.node (.node (.leaf (.mult 35923 1664 (.ofNat 1) 0)) .nil) .nil) .nil) (.node (.node (.node (.leaf (.mult 32491 3361 (.ofNat 1) 0)) (.leaf (.trans [(42461, .negSucc 0)] 0))) .nil) .nil)))))) (.node (.node (.node (.node (.node (.node (.node (.node (.leaf (.mult 2917 1339 (.ofNat 1) 0)) .nil) .nil) .nil) (.node (.node (.node (.leaf (.mult 3761 1439 (.ofNat 1) 0)) .nil) .nil) .nil)) (.node (.node (.node (.node (.leaf (.mult 20029 3391 (.ofNat 1) 0)) .nil) .nil) .nil) .nil)) (.node (.node (.node (.node (.node (.leaf (.trans [(378857, .ofNat 1)] 0)) .nil) .nil) .nil) (.node (.node (.node (.leaf (.mult 20323 3607 (.negSucc 0) 0)) .nil) .nil) .nil)) (.node (.node (.node (.node (.leaf (.mult 29327 1380 (.ofNat 1) 0)) .nil) .nil) .nil) (.node (.node (.node (.leaf (.trans [(1242055421, .ofNat 1)] 0)) .nil) .nil) .nil)))) (.node (.node (.node (.node (.node (.node (.leaf (.mult 5527 1422 (.ofNat 1) 0)) .nil) .nil) .nil) (.node (.node (.node (.leaf (.trans [(158690269, .ofNat 1)] 0)) .nil) .nil) .nil)) (.node (.node (.node (.node (.leaf (.mult 14087 3466 (.ofNat 1) 0)) .nil) .nil) .nil) .nil)) (.node (.node .nil (.node (.node (.node (.leaf (.mult 42209 3667 (.ofNat 1) 0)) .nil) .nil) .nil)) (.node (.node (.node (.node (.leaf (.mult 15377 1413 (.ofNat 1) 0)) .nil) .nil) .nil) (.node (.node (.node (.leaf (.trans [(20399, .ofNat 1), (20407, .negSucc 0)] 0)) .nil) .nil) .nil))))) (.node (.node (.node (.node .nil (.node (.node (.node (.leaf (.mult 26249 3520 (.ofNat 1) 0)) .nil) .nil) .nil)) (.node (.node (.node (.node (.leaf (.mult 32573 3421 (.ofNat 1) 0)) .nil) .nil) .nil) (.node (.node (.node (.leaf (.mult 26053 3435 (.ofNat 1) 0)) .nil) .nil) .nil))) (.node .nil (.node (.node (.node (.node (.leaf (.trans [(7199939, .negSucc 1)] 1)) .nil) .nil) .nil) (.node (.node (.node (.leaf (.mult 19973 3342 (.ofNat 1) 0)) .nil) .nil) .nil)))) (.node (.node (.node .nil (.node (.node (.node (.leaf (.mult 41759 3569 (.ofNat 1) 0)) .nil) .nil) .nil)) (.node (.node (.node (.node (.leaf (.mult 9091 3500 (.ofNat 1) 0)) .nil) .nil) .nil) .nil)) (.node (.node (.node (.node (.node (.leaf (.mult 15391 1417 (.ofNat 1) 0)) .nil) .nil) .nil) .nil) (.node (.node (.node (.node (.leaf (.trans [(41969341, .ofNat 1)] 0)) .nil) .nil) .nil) (.node (.node (.node (.leaf (.mult 35171 4948 (.ofNat 1) 0)) .nil) .nil) .nil))))))

def jac325 : JTree := .node (.node (.node (.node (.node (.node (.node .nil (.node (.node (.leaf (.mult 46309 4894 (.negSucc 0) 0)) .nil) .nil)) (.node (.node (.node (.leaf (.mult 29347 1396 (.ofNat 1) 0)) .nil) .nil) .nil)) (.node (.node (.node (.node (.leaf (.trans [(17483, .negSucc 0), (415733, .negSucc 0)] 0)) .nil) .nil) .nil) .nil)) (.node (.node .nil (.node (.node (.node (.leaf (.mult 41809 3581 (.ofNat 1) 0)) .nil) .nil) .nil)) (.node (.node (.node (.node (.leaf (.mult 32611 3479 (.ofNat 1) 0)) .nil) .nil) .nil) .nil))) (.node (.node (.node (.node (.node (.node (.leaf (.trans [(19128253, .ofNat 1)] 0)) .nil) .nil) .nil) (.node (.node (.node (.leaf (.trans [(1854038911, .ofNat 2)] 1)) .nil) .nil) .nil)) (.node (.node (.node (.node (.leaf (.mult 26107 3442 (.ofNat 1) 0)) .nil) .nil) .nil) (.node (.node (.node (.leaf (.trans [(1124089, .ofNat 1)] 0)) .nil) .nil) .nil))) (.node (.node .nil (.node (.node (.node (.leaf (.mult 42181 3659 (.ofNat 1) 0)) .nil) .nil) .nil)) (.node (.node (.node (.node (.leaf (.mult 13337 1369 (.ofNat 1) 0)) .nil) .nil) .nil) (.node (.node (.node (.leaf (.mult 25997 3369 (.ofNat 1) 0)) .nil) .nil) .nil))))) (.node (.node (.node (.node (.node (.node (.node (.leaf (.trans [(598769, .ofNat 2)] 1)) .nil) .nil) .nil) (.node (.node (.node (.leaf (.mult 11149 1667 (.negSucc 0) 0)) .nil) .nil) .nil)) (.node (.node (.node (.node (.leaf (.mult 16193 3403 (.ofNat 1) 0)) .nil) .nil) .nil) (.node (.node (.node (.leaf (.trans [(12977641, .ofNat 1)] 0)) .nil) .nil) .nil))) (.node (.node (.node (.node (.node (.leaf (.trans [(511759, .ofNat 1)] 0)) .nil) .nil) .nil) .nil) (.node (.node (.node (.node (.leaf (.mult 29333 1382 (.ofNat 2) 1)) .nil) .nil) .nil) (.node (.node (.node (.leaf (.trans [(1145446691, .ofNat 1)] 0)) .nil) .nil) .nil)))) (.node (.node (.node .nil (.node (.node (.node (.leaf (.mult 26309 3540 (.ofNat 1) 0)) .nil) .nil) .nil)) (.node (.node (.node (.node (.leaf (.mult 16229 3470 (.negSucc 0) 0)) .nil) .nil) .nil) .nil)) (.node (.node (.node (.node (.node (.leaf (.mult 15359 1399 (.ofNat 1) 0)) .nil) .nil) .nil) (.node (.node (.node (.leaf (.mult 42221 3668 (.ofNat 1) 0)) .nil) .nil) .nil)) (.node .nil (.node (.node (.node (.leaf (.mult 16319 3648 (.ofNat 1) 0)) .nil) .nil) .nil)))))) (.node (.node (.node (.node (.node (.node (.node (.node (.leaf (.trans [(76127, .negSucc 0)] 0)) .nil) .nil) .nil) (.node (.node (.node (.leaf (.mult 23293 1562 (.ofNat 1) 0)) .nil) .nil) .nil)) (.node (.node (.node (.node (.leaf (.mult 11887 3380 (.ofNat 1) 0)) .nil) .nil) .nil) .nil)) (.node (.node (.node (.node (.node (.leaf (.mult 4243 1405 (.ofNat 1) 0)) .nil) .nil) .nil) (.node (.node (.node (.leaf (.mult 41893 3597 (.ofNat 1) 0)) .nil) .nil) .nil)) (.node .nil (.node (.node (.node (.leaf (.mult 25943 3340 (.ofNat 1) 0)) .nil) .nil) .nil)))) (.node (.node (.node .nil (.node (.node (.node (.leaf (.mult 41651 3546 (.ofNat 1) 0)) .nil) .nil) .nil)) .nil) (.node (.node .nil (.node (.node (.node (.leaf (.mult 32993 3666 (.ofNat 1) 0)) .nil) .nil) .nil)) (.node (.node (.node (.node (.leaf (.mult 17509 1426 (.ofNat 1) 0)) .nil) .nil) .nil) (.node (.node (.node (.leaf (.mult 8969 3332 (.ofNat 1) 0)) .nil) .nil) .nil))))) (.node (.node (.node (.node .nil (.node (.node (.node (.leaf (.trans [(10442353, .ofNat 1)] 0)) .nil) .nil) .nil)) (.node (.node (.node (.node (.leaf (.mult 16223 3432 (.ofNat 1) 0)) .nil) .nil) .nil) (.node (.node (.node (.leaf (.trans [(5426059, .ofNat 1)] 0)) .nil) .nil) .nil))) (.node .nil (.node (.node (.node (.node (.leaf (.mult 22993 1363 (.ofNat 2) 1)) .nil) .nil) .nil) (.node (.node (.node (.leaf (.mult 14197 3646 (.ofNat 1) 0)) .nil) .nil) .nil)))) (.node (.node (.node .nil (.node (.node (.node (.leaf (.mult 32771 3565 (.ofNat 1) 0)) .nil) .nil) .nil)) (.node (.node (.node (.node (.leaf (.mult 41539 3498 (.ofNat 1) 0)) .nil) .nil) .nil) (.node (.node (.node (.leaf (.mult 20341 3613 (.ofNat 1) 0)) .nil) .nil) .nil))) (.node (.node (.node (.node (.node (.leaf (.mult 17491 1415 (.ofNat 1) 0)) .nil) .nil) .nil) (.node (.node (.node (.leaf (.trans [(8726701, .ofNat 1)] 0)) .nil) .nil) .nil)) (.node .nil (.node (.node (.node (.leaf (.mult 42227 3675 (.ofNat 1) 0)) .nil) .nil) .nil))))))

def jac326 : JTree := .node (.node (.node (.node (.node (.node .nil (.node (.node (.node (.leaf (.mult 23563 1658 (.ofNat 1) 0)) .nil) .nil) .nil)) (.node (.node (.node (.node (.leaf (.trans [(48515539, .ofNat 1)] 0)) .nil) .nil) .nil) (.node (.node (.node (.leaf (.trans [(14801431, .ofNat 1)] 0)) .nil) .nil) .nil))) (.node (.node .nil (.node (.node (.node (.leaf (.mult 32869 3588 (.ofNat 1) 0)) .nil) .nil) .nil)) (.node (.node (.node (.node (.leaf (.mult 11353 3477 (.ofNat 1) 0)) .nil) .nil) .nil) (.node (.node (.node (.leaf (.mult 16183 3353 (.ofNat 1) 0)) .nil) .nil) .nil)))) (.node (.node (.node (.node (.node (.node (.leaf (.mult 4139 1441 (.ofNat 1) 0)) .nil) .nil) .nil) (.node (.node (.node (.leaf (.mult 41669 3554 (.ofNat 1) 0)) .nil) .nil) .nil)) (.node (.node (.node (.node (.leaf (.mult 9043 3459 (.ofNat 1) 0)) .nil) .nil) .nil) (.node (.node (.node (.leaf (.trans [(8698873, .ofNat 1)] 0)) .nil) .nil) .nil))) (.node (.node .nil (.node (.node (.node (.leaf (.mult 42019 3632 (.ofNat 1) 0)) .nil) .nil) .nil)) (.node (.node (.node (.node (.leaf (.mult 6569 1387 (.ofNat 1) 0)) .nil) .nil) .nil) (.node (.node (.node (.leaf (.mult 20023 3359 (.ofNat 1) 0)) .nil) .nil) .nil))))) (.node (.node (.node (.node .nil (.node (.node (.node (.leaf (.mult 41597 3511 (.negSucc 0) 0)) .nil) .nil) .nil)) (.node (.node (.node (.node (.leaf (.mult 12437 3411 (.ofNat 1) 0)) .nil) .nil) .nil) (.node (.node (.node (.leaf (.trans [(386612621, .ofNat 1)] 0)) .nil) .nil) .nil))) (.node .nil (.node (.node (.node (.node (.leaf (.trans [(9174343, .negSucc 1)] 1)) .nil) .nil) .nil) (.node (.node (.node (.leaf (.mult 42083 3645 (.ofNat 1) 0)) .nil) .nil) .nil)))) (.node (.node (.node .nil (.node (.node (.node (.leaf (.mult 41953 3605 (.ofNat 1) 0)) .nil) .nil) .nil)) (.node (.node (.node (.node (.leaf (.mult 14153 3486 (.ofNat 1) 0)) .nil) .nil) .nil) (.node (.node (.node (.leaf (.mult 20219 3463 (.ofNat 1) 0)) .nil) .nil) .nil))) (.node (.node (.node (.node (.node (.leaf (.mult 15331 1391 (.ofNat 1) 0)) .nil) .nil) .nil) (.node (.node (.node (.leaf (.mult 42169 3656 (.ofNat 1) 0)) .nil) .nil) .nil)) (.node (.node (.node (.node (.leaf (.mult 29363 1411 (.ofNat 1) 0)) .nil) .nil) .nil) (.node (.node (.node (.leaf (.mult 34961 4886 (.ofNat 1) 0)) .nil) .nil) .nil)))))) (.node (.node (.node (.node (.node .nil (.node (.node (.node (.leaf (.mult 5011 1514 (.negSucc 0) 0)) .nil) .nil) .nil)) (.node (.node (.node (.node (.leaf (.mult 20071 3397 (.ofNat 1) 0)) .nil) .nil) .nil) (.node (.node (.node (.leaf (.mult 20089 3398 (.ofNat 1) 0)) .nil) .nil) .nil))) (.node (.node (.node (.node (.node (.leaf (.mult 4289 3333 (.negSucc 0) 0)) .nil) .nil) .nil) .nil) (.node (.node (.node (.node (.leaf (.mult 29209 1355 (.ofNat 1) 0)) .nil) .nil) .nil) (.node (.node (.node (.leaf (.mult 32479 3357 (.ofNat 1) 0)) .nil) .nil) .nil)))) (.node (.node (.node (.node (.node (.node (.leaf (.mult 6577 1421 (.ofNat 1) 0)) .nil) .nil) .nil) (.node (.node (.node (.leaf (.mult 32693 3533 (.ofNat 1) 0)) .nil) .nil) .nil)) (.node (.node (.node (.node (.leaf (.mult 9041 3458 (.ofNat 1) 0)) .nil) .nil) .nil) (.node (.node (.node (.leaf (.trans [(5697299, .ofNat 1)] 0)) .nil) .nil) .nil))) (.node (.node .nil (.node (.node (.node (.leaf (.mult 42061 3637 (.ofNat 1) 0)) .nil) .nil) .nil)) (.node (.node (.node (.node (.leaf (.mult 35869 1659 (.ofNat 1) 0)) .nil) .nil) .nil) (.node (.node (.node (.leaf (.mult 16349 3715 (.ofNat 1) 0)) (.leaf (.mult 15527 1518 (.ofNat 1) 0))) .nil) .nil))))) (.node (.node (.node (.node .nil (.node (.node (.node (.leaf (.mult 32687 3524 (.ofNat 1) 0)) .nil) .nil) .nil)) (.node (.node (.node (.node (.leaf (.mult 20117 3420 (.ofNat 1) 0)) .nil) .nil) .nil) (.node (.node (.node (.leaf (.trans [(23950099, .ofNat 1)] 0)) .nil) .nil) .nil))) (.node (.node .nil (.node (.node (.node (.leaf (.mult 42013 3627 (.ofNat 1) 0)) .nil) .nil) .nil)) (.node .nil (.node (.node (.node (.leaf (.mult 41341 3371 (.ofNat 1) 0)) .nil) .nil) .nil)))) (.node (.node (.node .nil (.node (.node (.node (.leaf (.mult 16249 3573 (.ofNat 1) 0)) .nil) .nil) .nil)) (.node (.node (.node (.node (.leaf (.trans [(5344709, .ofNat 1)] 0)) .nil) .nil) .nil) (.node (.node (.node (.leaf (.mult 41333 3366 (.ofNat 1) 0)) .nil) .nil) .nil))) (.node (.node (.node (.node (.node (.leaf (.trans [(15383, .ofNat 1), (15391, .ofNat 1)] 0)) .nil) .nil) .nil) .nil) (.node (.node (.node (.node (.leaf (.mult 23291 1561 (.ofNat 1) 0)) .nil) .nil) .nil) (.node (.node (.node (.leaf (.mult 46279 4889 (.ofNat 1) 0)) .nil) .nil) .nil))))))

def jac327 : JTree := .node (.node (.node (.node (.node (.node (.node .nil (.node (.node (.leaf (.mult 46751 4954 (.ofNat 1) 0)) .nil) .nil)) (.node (.node (.node (.leaf (.mult 23593 1672 (.negSucc 0) 0)) .nil) .nil) .nil)) .nil) (.node (.node .nil (.node (.node (.node (.leaf (.mult 42937 3940 (.ofNat 1) 0)) .nil) .nil) .nil)) (.node (.node (.node (.node (.leaf (.mult 7879 3863 (.ofNat 1) 0)) .nil) .nil) .nil) (.node (.node (.node (.leaf (.mult 43669 4066 (.ofNat 1) 0)) .nil) .nil) .nil)))) (.node (.node (.node .nil (.node (.node (.node (.leaf (.mult 26801 3893 (.ofNat 1) 0)) .nil) .nil) .nil)) (.node (.node (.node (.node (.leaf (.mult 10331 3794 (.ofNat 1) 0)) .nil) .nil) .nil) (.node (.node (.node (.leaf (.trans [(8924717, .ofNat 1)] 0)) .nil) .nil) .nil))) (.node (.node .nil (.node (.node (.node (.leaf (.mult 43201 3989 (.ofNat 1) 0)) .nil) .nil) .nil)) (.node .nil (.node (.node (.node (.leaf (.mult 14249 3728 (.ofNat 1) 0)) .nil) .nil) .nil))))) (.node (.node (.node (.node .nil (.node (.node (.node (.leaf (.mult 3001 1567 (.ofNat 1) 0)) .nil) .nil) .nil)) (.node (.node (.node (.node (.leaf (.mult 33191 3775 (.ofNat 1) 0)) .nil) .nil) .nil) (.node (.node (.node (.leaf (.mult 33223 3803 (.ofNat 1) 0)) .nil) .nil) .nil))) (.node (.node .nil (.node (.node (.node (.leaf (.mult 26953 3985 (.ofNat 1) 0)) .nil) .nil) .nil)) (.node .nil (.node (.node (.node (.leaf (.mult 33119 3743 (.ofNat 1) 0)) .nil) .nil) .nil)))) (.node (.node (.node (.node (.node (.node (.leaf (.trans [(214157, .negSucc 0), (233561, .ofNat 1)] 0)) .nil) .nil) .nil) (.node (.node (.node (.leaf (.trans [(1109827451, .ofNat 1)] 0)) .nil) .nil) .nil)) (.node (.node (.node (.node (.leaf (.trans [(917057, .ofNat 1)] 0)) .nil) .nil) .nil) .nil)) (.node (.node .nil (.node (.node (.node (.leaf (.mult 33587 4001 (.ofNat 1) 0)) .nil) .nil) .nil)) (.node (.node (.node (.node (.leaf (.mult 1723 1461 (.negSucc 0) 0)) .nil) .nil) .nil) (.node (.node (.node (.leaf (.mult 43721 4073 (.ofNat 1) 0)) (.leaf (.trans [(15541, .ofNat 1)] 0))) .nil) .nil)))))) (.node (.node (.node (.node .nil (.node (.node (.node (.node (.leaf (.mult 11903 3755 (.ofNat 1) 0)) .nil) .nil) .nil) .nil)) (.node (.node .nil (.node (.node (.node (.leaf (.mult 33521 3956 (.ofNat 1) 0)) .nil) .nil) .nil)) (.node (.node (.node (.node (.leaf (.mult 14303 3851 (.ofNat 1) 0)) .nil) .nil) .nil) .nil))) (.node (.node (.node .nil (.node (.node (.node (.leaf (.trans [(26893, .ofNat 1)] 0)) .nil) .nil) .nil)) (.node (.node (.node (.node (.leaf (.mult 9221 3830 (.ofNat 1) 0)) .nil) .nil) .nil) (.node (.node (.node (.leaf (.mult 20749 3821 (.ofNat 1) 0)) .nil) .nil) .nil))) (.node (.node .nil (.node (.node (.node (.leaf (.mult 33563 3993 (.ofNat 1) 0)) .nil) .nil) .nil)) (.node (.node (.node (.node (.leaf (.trans [(3991459, .negSucc 0)] 0)) .nil) .nil) .nil) (.node (.node (.node (.leaf (.mult 43397 4014 (.ofNat 1) 0)) .nil) .nil) .nil))))) (.node (.node (.node (.node .nil (.node (.node (.node (.leaf (.mult 20773 3880 (.negSucc 0) 0)) .nil) .nil) .nil)) (.node (.node (.node (.node (.leaf (.mult 7057 3785 (.ofNat 1) 0)) .nil) .nil) .nil) (.node (.node (.node (.leaf (.trans [(14937487, .ofNat 1)] 0)) .nil) .nil) .nil))) (.node (.node .nil (.node (.node (.node (.leaf (.mult 43159 3984 (.ofNat 1) 0)) .nil) .nil) .nil)) (.node .nil (.node (.node (.node (.leaf (.mult 20879 3977 (.ofNat 1) 0)) .nil) .nil) .nil)))) (.node (.node (.node .nil (.node (.node (.node (.leaf (.mult 43103 3969 (.ofNat 1) 0)) .nil) .nil) .nil)) (.node (.node (.node (.node (.leaf (.mult 16411 3857 (.ofNat 1) 0)) .nil) .nil) .nil) (.node (.node (.node (.leaf (.mult 43627 4055 (.ofNat 1) 0)) .nil) .nil) .nil))) (.node (.node .nil (.node (.node (.node (.leaf (.mult 26987 4020 (.ofNat 1) 0)) .nil) .nil) .nil)) (.node .nil (.node (.node (.node (.leaf (.mult 46327 4897 (.ofNat 1) 0)) .nil) .nil) .nil))))))

def jac328 : JTree := .node (.node (.node (.node (.node (.node (.node .nil (.node (.node (.leaf (.mult 46771 4958 (.negSucc 0) 0)) .nil) .nil)) (.node (.node (.node (.leaf (.trans [(481529023, .negSucc 0)] 0)) .nil) .nil) .nil)) .nil) (.node (.node .nil (.node (.node (.node (.leaf (.mult 33479 3948 (.ofNat 1) 0)) .nil) .nil) .nil)) (.node (.node (.node (.node (.leaf (.mult 26717 3844 (.ofNat 1) 0)) .nil) .nil) .nil) .nil))) (.node (.node (.node .nil (.node (.node (.node (.leaf (.mult 5381 3899 (.ofNat 1) 0)) .nil) .nil) .nil)) (.node (.node (.node (.node (.leaf (.mult 12487 3813 (.ofNat 1) 0)) .nil) .nil) .nil) .nil)) (.node .nil (.node .nil (.node (.node (.node (.leaf (.mult 43691 4067 (.ofNat 1) 0)) .nil) .nil) .nil))))) (.node (.node (.node .nil (.node (.node (.node (.node (.leaf (.trans [(45676469, .negSucc 0)] 0)) .nil) .nil) .nil) .nil)) .nil) (.node (.node (.node .nil (.node (.node (.node (.leaf (.mult 42829 3909 (.ofNat 1) 0)) .nil) .nil) .nil)) (.node .nil (.node (.node (.node (.leaf (.trans [(5804569, .ofNat 1)] 0)) .nil) .nil) .nil))) (.node (.node .nil (.node (.node (.node (.leaf (.mult 43177 3986 (.ofNat 1) 0)) .nil) .nil) .nil)) (.node (.node (.node (.node (.leaf (.mult 35963 1676 (.ofNat 1) 0)) .nil) .nil) .nil) (.node (.node (.node (.leaf (.mult 43717 4071 (.ofNat 1) 0)) (.leaf (.mult 2417 1683 (.ofNat 1) 0))) .nil) .nil)))))) (.node (.node (.node (.node (.node .nil (.node (.node (.node (.leaf (.trans [(1135457, .negSucc 0)] 0)) .nil) .nil) .nil)) (.node (.node (.node (.node (.leaf (.mult 11393 3757 (.ofNat 1) 0)) .nil) .nil) .nil) (.node (.node (.node (.leaf (.trans [(14851087, .ofNat 1)] 0)) .nil) .nil) .nil))) (.node (.node .nil (.node (.node (.node (.leaf (.mult 16427 3964 (.ofNat 1) 0)) .nil) .nil) .nil)) (.node .nil (.node (.node (.node (.leaf (.mult 26513 3744 (.ofNat 1) 0)) .nil) .nil) .nil)))) (.node (.node (.node (.node (.node (.node (.leaf (.mult 5557 1452 (.ofNat 1) 0)) .nil) .nil) .nil) (.node (.node (.node (.leaf (.mult 26879 3915 (.ofNat 1) 0)) .nil) .nil) .nil)) (.node (.node (.node (.node (.leaf (.mult 42643 3834 (.ofNat 1) 0)) .nil) .nil) .nil) .nil)) (.node (.node .nil (.node (.node (.node (.leaf (.mult 33589 4025 (.ofNat 1) 0)) .nil) .nil) .nil)) (.node (.node (.node (.node (.leaf (.trans [(480772679, .ofNat 1), (698155663, .negSucc 0)] 0)) .nil) .nil) .nil) (.node (.node (.node (.leaf (.mult 20981 4054 (.ofNat 1) 0)) .nil) .nil) .nil))))) (.node (.node (.node (.node .nil (.node (.node (.node (.leaf (.mult 20789 3885 (.ofNat 1) 0)) .nil) .nil) .nil)) (.node (.node (.node (.node (.leaf (.mult 16369 3800 (.ofNat 1) 0)) .nil) .nil) .nil) .nil)) (.node .nil (.node .nil (.node (.node (.node (.leaf (.mult 20921 3983 (.ofNat 1) 0)) .nil) .nil) .nil)))) (.node (.node (.node .nil (.node (.node (.node (.leaf (.mult 33403 3932 (.ofNat 1) 0)) .nil) .nil) .nil)) (.node (.node (.node (.node (.leaf (.trans [(3369427, .ofNat 1)] 0)) .nil) .nil) .nil) .nil)) (.node .nil (.node (.node (.node (.node (.leaf (.mult 23041 1457 (.ofNat 1) 0)) .nil) .nil) .nil) (.node (.node (.node (.leaf (.mult 35059 4900 (.ofNat 1) 0)) .nil) .nil) .nil))))))

def jac329 : JTree := .node (.node (.node (.node (.node (.node (.node .nil (.node (.node (.leaf (.mult 46769 4957 (.ofNat 1) 0)) .nil) .nil)) .nil) (.node (.node (.node (.node (.leaf (.trans [(7297, .ofNat 1)] 0)) .nil) .nil) .nil) .nil)) (.node (.node .nil (.node (.node (.node (.leaf (.mult 16421 3944 (.ofNat 1) 0)) .nil) .nil) .nil)) (.node (.node (.node (.node (.leaf (.trans [(18923899, .ofNat 1)] 0)) .nil) .nil) .nil) .nil))) (.node (.node (.node .nil (.node (.node (.node (.leaf (.mult 9241 3896 (.ofNat 1) 0)) .nil) .nil) .nil)) (.node (.node (.node (.node (.leaf (.mult 26681 3812 (.ofNat 1) 0)) .nil) .nil) .nil) (.node (.node (.node (.leaf (.trans [(2401963, .ofNat 1)] 0)) .nil) .nil) .nil))) (.node (.node .nil (.node (.node (.node (.leaf (.mult 43597 4046 (.ofNat 1) 0)) .nil) .nil) .nil)) (.node .nil (.node (.node (.node (.leaf (.mult 14243 3726 (.ofNat 1) 0)) .nil) .nil) .nil))))) (.node (.node (.node (.node .nil (.node (.node (.node (.leaf (.mult 3257 1592 (.negSucc 0) 0)) .nil) .nil) .nil)) (.node (.node (.node (.node (.leaf (.mult 6329 3796 (.ofNat 1) 0)) .nil) .nil) .nil) .nil)) (.node (.node .nil (.node (.node (.node (.leaf (.trans [(1803589, .negSucc 0)] 0)) .nil) .nil) .nil)) .nil)) (.node (.node (.node .nil (.node (.node (.node (.leaf (.mult 26833 3905 (.ofNat 1) 0)) .nil) .nil) .nil)) (.node (.node (.node (.node (.leaf (.trans [(327281, .ofNat 1)] 0)) .nil) .nil) .nil) (.node (.node (.node (.leaf (.trans [(17994887, .ofNat 1)] 0)) .nil) .nil) .nil))) (.node (.node .nil (.node (.node (.node (.leaf (.trans [(3252911, .negSucc 0)] 0)) .nil) .nil) .nil)) (.node .nil (.node (.node (.node (.leaf (.mult 43711 4070 (.ofNat 1) 0)) (.leaf (.mult 613 1593 (.ofNat 1) 0))) .nil) .nil)))))) (.node (.node (.node (.node (.node .nil (.node (.node (.node (.leaf (.mult 23581 1671 (.negSucc 0) 0)) .nil) .nil) .nil)) .nil) (.node (.node .nil (.node (.node (.node (.leaf (.mult 43019 3960 (.ofNat 1) 0)) .nil) .nil) .nil)) .nil)) (.node (.node (.node .nil (.node (.node (.node (.leaf (.mult 33353 3913 (.ofNat 1) 0)) .nil) .nil) .nil)) (.node (.node (.node (.node (.leaf (.mult 42571 3822 (.ofNat 1) 0)) .nil) .nil) .nil) (.node (.node (.node (.leaf (.mult 33247 3831 (.ofNat 1) 0)) .nil) .nil) .nil))) (.node (.node .nil (.node (.node (.node (.leaf (.trans [(2229209, .negSucc 0)] 0)) .nil) .nil) .nil)) (.node .nil (.node (.node (.node (.leaf (.mult 20939 4015 (.ofNat 1) 0)) .nil) .nil) .nil))))) (.node (.node (.node (.node .nil (.node (.node (.node (.leaf (.mult 42767 3883 (.negSucc 0) 0)) .nil) .nil) .nil)) (.node (.node (.node (.node (.leaf (.mult 7057 3785 (.negSucc 0) 0)) .nil) .nil) .nil) .nil)) (.node (.node .nil (.node (.node (.node (.leaf (.mult 43399 4016 (.ofNat 1) 0)) .nil) .nil) .nil)) (.node .nil (.node (.node (.node (.leaf (.mult 42719 3875 (.ofNat 1) 0)) .nil) .nil) .nil)))) (.node (.node (.node .nil (.node (.node (.node (.leaf (.mult 20849 3972 (.ofNat 1) 0)) .nil) .nil) .nil)) (.node (.node (.node (.node (.leaf (.mult 5147 3860 (.ofNat 1) 0)) .nil) .nil) .nil) (.node (.node (.node (.leaf (.mult 43319 4007 (.ofNat 1) 0)) .nil) .nil) .nil))) (.node (.node (.node (.node (.node (.leaf (.mult 7297 1459 (.ofNat 1) 0)) .nil) .nil) .nil) .nil) (.node .nil (.node (.node (.node (.leaf (.mult 33623 4036 (.ofNat 1) 0)) .nil) .nil) .nil))))))

def jac330 : JTree := .node (.node (.node (.node (.node (.node (.node (.node (.node (.leaf (.trans [(311, .ofNat 1)] 0)) .nil) .nil) .nil) .nil) (.node (.node (.node (.node (.leaf (.trans [(42620051, .negSucc 0)] 0)) .nil) .nil) .nil) (.node (.node (.node (.leaf (.mult 33179 3761 (.ofNat 1) 0)) .nil) .nil) .nil))) (.node (.node .nil (.node (.node (.node (.leaf (.mult 42989 3952 (.ofNat 1) 0)) .nil) .nil) .nil)) (.node (.node (.node (.node (.leaf (.mult 42683 3850 (.ofNat 1) 0)) .nil) .nil) .nil) (.node (.node (.node (.leaf (.mult 43613 4053 (.ofNat 1) 0)) .nil) .nil) .nil)))) (.node (.node (.node .nil (.node (.node (.node (.leaf (.mult 33377 3920 (.ofNat 1) 0)) .nil) .nil) .nil)) (.node (.node (.node (.node (.leaf (.mult 26683 3816 (.ofNat 1) 0)) .nil) .nil) .nil) (.node (.node (.node (.leaf (.trans [(81174109, .negSucc 0), (88601101, .ofNat 1)] 0)) .nil) .nil) .nil))) (.node (.node .nil (.node (.node (.node (.leaf (.mult 33577 3995 (.ofNat 1) 0)) .nil) .nil) .nil)) (.node .nil (.node (.node (.node (.leaf (.mult 20507 3730 (.ofNat 1) 0)) .nil) .nil) .nil))))) (.node (.node (.node (.node .nil (.node (.node (.node (.leaf (.mult 42737 3878 (.negSucc 0) 0)) .nil) .nil) .nil)) (.node (.node (.node (.node (.leaf (.mult 5653 3779 (.negSucc 0) 0)) .nil) .nil) .nil) (.node (.node (.node (.leaf (.trans [(6629723, .ofNat 1)] 0)) .nil) .nil) .nil))) (.node .nil (.node .nil (.node (.node (.node (.leaf (.mult 20771 3877 (.ofNat 1) 0)) .nil) .nil) .nil)))) (.node (.node (.node .nil (.node (.node (.node (.leaf (.mult 20807 3928 (.ofNat 1) 0)) .nil) .nil) .nil)) (.node (.node (.node (.node (.leaf (.mult 42697 3856 (.ofNat 1) 0)) .nil) .nil) .nil) (.node (.node (.node (.leaf (.trans [(7607573, .ofNat 1)] 0)) .nil) .nil) .nil))) (.node (.node .nil (.node (.node (.node (.leaf (.mult 43579 4043 (.ofNat 1) 0)) .nil) .nil) .nil)) (.node .nil (.node (.node (.node (.leaf (.mult 33151 3752 (.ofNat 1) 0)) (.leaf (.trans [(46381, .ofNat 1)] 0))) .nil) .nil)))))) (.node (.node (.node (.node (.node .nil (.node (.node (.node (.leaf (.mult 3793 1467 (.negSucc 0) 0)) .nil) .nil) .nil)) (.node (.node (.node (.node (.leaf (.mult 26573 3771 (.ofNat 1) 0)) .nil) .nil) .nil) (.node (.node (.node (.leaf (.trans [(19655183, .ofNat 1)] 0)) .nil) .nil) .nil))) (.node (.node .nil (.node (.node (.node (.leaf (.mult 20873 3976 (.ofNat 1) 0)) .nil) .nil) .nil)) .nil)) (.node (.node (.node (.node (.node (.node (.leaf (.mult 5563 1455 (.ofNat 1) 0)) .nil) .nil) .nil) (.node (.node (.node (.leaf (.trans [(142426259, .negSucc 0)] 0)) .nil) .nil) .nil)) (.node (.node (.node (.node (.leaf (.mult 42611 3826 (.ofNat 1) 0)) .nil) .nil) .nil) .nil)) (.node (.node .nil (.node (.node (.node (.leaf (.mult 43481 4028 (.ofNat 1) 0)) .nil) .nil) .nil)) (.node .nil (.node (.node (.node (.leaf (.trans [(20981, .ofNat 1)] 0)) .nil) .nil) .nil))))) (.node (.node (.node (.node .nil (.node (.node (.node (.leaf (.mult 26783 3889 (.ofNat 1) 0)) .nil) .nil) .nil)) (.node (.node (.node (.node (.leaf (.mult 42569 3791 (.negSucc 0) 0)) .nil) .nil) .nil) (.node (.node (.node (.leaf (.mult 20731 3808 (.ofNat 1) 0)) .nil) .nil) .nil))) (.node (.node .nil (.node (.node (.node (.leaf (.mult 43457 4024 (.ofNat 1) 0)) .nil) .nil) .nil)) (.node .nil (.node (.node (.node (.leaf (.trans [(17148407, .ofNat 1)] 0)) .nil) .nil) .nil)))) (.node (.node (.node .nil (.node (.node (.node (.leaf (.mult 33413 3936 (.ofNat 1) 0)) .nil) .nil) .nil)) (.node (.node (.node (.node (.leaf (.mult 11423 3865 (.ofNat 1) 0)) .nil) .nil) .nil) .nil)) (.node .nil (.node .nil (.node (.node (.node (.leaf (.mult 46757 4956 (.ofNat 1) 0)) .nil) .nil) .nil))))))

def jac331 : JTree := .node (.node (.node (.node (.node (.node (.node .nil (.node (.node (.leaf (.mult 43609 4052 (.ofNat 1) 0)) .nil) .nil)) .nil) (.node (.node (.node (.node (.leaf (.trans [(7307, .ofNat 1)] 0)) .nil) .nil) .nil) .nil)) (.node (.node .nil (.node (.node (.node (.leaf (.mult 42943 3943 (.ofNat 1) 0)) .nil) .nil) .nil)) (.node (.node (.node (.node (.leaf (.mult 11411 3859 (.ofNat 1) 0)) .nil) .nil) .nil) (.node (.node (.node (.leaf (.mult 42467 3732 (.ofNat 1) 0)) .nil) .nil) .nil)))) (.node (.node (.node .nil (.node (.node (.node (.leaf (.mult 42793 3895 (.ofNat 1) 0)) .nil) .nil) .nil)) (.node (.node (.node (.node (.leaf (.mult 20743 3814 (.ofNat 1) 0)) .nil) .nil) .nil) (.node (.node (.node (.leaf (.trans [(2400239, .ofNat 1)] 0)) .nil) .nil) .nil))) (.node (.node .nil (.node (.node (.node (.leaf (.mult 43607 4047 (.ofNat 1) 0)) .nil) .nil) .nil)) (.node .nil (.node (.node (.node (.leaf (.mult 43573 4040 (.ofNat 1) 0)) .nil) .nil) .nil))))) (.node (.node (.node (.node .nil (.node (.node (.node (.leaf (.mult 3011 1569 (.negSucc 0) 0)) .nil) .nil) .nil)) (.node .nil (.node (.node (.node (.leaf (.trans [(11244197, .ofNat 1)] 0)) .nil) .nil) .nil))) (.node (.node .nil (.node (.node (.node (.leaf (.trans [(4192703, .negSucc 0)] 0)) .nil) .nil) .nil)) (.node .nil (.node (.node (.node (.leaf (.mult 33113 3739 (.ofNat 1) 0)) .nil) .nil) .nil)))) (.node (.node (.node .nil (.node (.node (.node (.leaf (.trans [(139406621, .negSucc 0)] 0)) .nil) .nil) .nil)) .nil) (.node (.node .nil (.node (.node (.node (.leaf (.trans [(2665541, .negSucc 0)] 0)) .nil) .nil) .nil)) (.node .nil (.node (.node (.node (.leaf (.mult 43661 4065 (.ofNat 1) 0)) (.leaf (.trans [(1117, .ofNat 1)] 0))) .nil) .nil)))))) (.node (.node (.node (.node .nil (.node (.node (.node (.node (.leaf (.mult 16361 3762 (.ofNat 1) 0)) .nil) .nil) .nil) .nil)) (.node (.node .nil (.node (.node (.node (.leaf (.mult 33529 3958 (.ofNat 1) 0)) .nil) .nil) .nil)) .nil)) (.node (.node (.node .nil (.node (.node (.node (.leaf (.mult 42853 3923 (.ofNat 1) 0)) .nil) .nil) .nil)) (.node .nil (.node (.node (.node (.leaf (.mult 12491 3815 (.ofNat 1) 0)) .nil) .nil) .nil))) (.node (.node .nil (.node (.node (.node (.leaf (.mult 33637 4048 (.ofNat 1) 0)) .nil) .nil) .nil)) (.node (.node (.node (.node (.leaf (.trans [(1519019, .negSucc 0)] 0)) .nil) .nil) .nil) (.node (.node (.node (.leaf (.mult 9151 3736 (.ofNat 1) 0)) .nil) .nil) .nil))))) (.node (.node (.node (.node .nil (.node (.node (.node (.leaf (.mult 42773 3884 (.ofNat 1) 0)) .nil) .nil) .nil)) (.node (.node (.node (.node (.leaf (.mult 7877 3786 (.negSucc 0) 0)) .nil) .nil) .nil) .nil)) (.node .nil (.node .nil (.node (.node (.node (.leaf (.mult 20887 3979 (.ofNat 1) 0)) .nil) .nil) .nil)))) (.node (.node (.node .nil (.node (.node (.node (.leaf (.mult 43067 3967 (.ofNat 1) 0)) .nil) .nil) .nil)) (.node (.node (.node (.node (.leaf (.trans [(3861833, .ofNat 1)] 0)) .nil) .nil) .nil) (.node (.node (.node (.leaf (.mult 43151 3974 (.ofNat 1) 0)) .nil) .nil) .nil))) (.node (.node .nil (.node (.node (.node (.leaf (.mult 20963 4051 (.ofNat 1) 0)) .nil) .nil) .nil)) (.node .nil (.node (.node (.node (.leaf (.mult 46747 4953 (.ofNat 1) 0)) .nil) .nil) .nil))))))

def jac332 : JTree := .node (.node (.node (.node (.node .nil (.node (.node (.node (.node (.leaf (.mult 4789 3758 (.ofNat 1) 0)) .nil) .nil) .nil) (.node (.node (.node (.leaf (.mult 26561 3766 (.ofNat 1) 0)) .nil) .nil) .nil))) (.node (.node .nil (.node (.node (.node (.leaf (.mult 42967 3949 (.ofNat 1) 0)) .nil) .nil) .nil)) (.node (.node (.node (.node (.leaf (.mult 42677 3849 (.ofNat 1) 0)) .nil) .nil) .nil) .nil))) (.node (.node (.node .nil (.node (.node (.node (.leaf (.mult 42859 3924 (.ofNat 1) 0)) .nil) .nil) .nil)) (.node (.node (.node (.node (.leaf (.mult 26687 3817 (.ofNat 1) 0)) .nil) .nil) .nil) (.node (.node (.node (.leaf (.trans [(10897847, .ofNat 1)] 0)) .nil) .nil) .nil))) (.node .nil (.node .nil (.node (.node (.node (.leaf (.mult 20521 3734 (.ofNat 1) 0)) .nil) .nil) .nil))))) (.node (.node (.node (.node .nil (.node (.node (.node (.leaf (.trans [(88876339, .ofNat 1)] 0)) .nil) .nil) .nil)) (.node (.node (.node (.node (.leaf (.mult 42557 3783 (.negSucc 0) 0)) .nil) .nil) .nil) .nil)) (.node .nil (.node .nil (.node (.node (.node (.leaf (.mult 26731 3873 (.ofNat 1) 0)) .nil) .nil) .nil)))) (.node (.node (.node .nil (.node (.node (.node (.leaf (.mult 26927 3926 (.ofNat 1) 0)) .nil) .nil) .nil)) (.node (.node (.node (.node (.leaf (.trans [(2992673, .ofNat 1)] 0)) .nil) .nil) .nil) .nil)) (.node (.node .nil (.node (.node (.node (.leaf (.mult 26959 3988 (.ofNat 1) 0)) .nil) .nil) .nil)) (.node .nil (.node (.node (.node (.leaf (.mult 33149 3750 (.ofNat 1) 0)) .nil) .nil) .nil)))))) (.node (.node (.node (.node (.node .nil (.node (.node (.node (.leaf (.mult 3769 1463 (.negSucc 0) 0)) .nil) .nil) .nil)) (.node (.node (.node (.node (.leaf (.mult 4789 3758 (.ofNat 1) 0)) .nil) .nil) .nil) .nil)) (.node (.node .nil (.node (.node (.node (.leaf (.mult 20903 3982 (.negSucc 0) 0)) .nil) .nil) .nil)) (.node .nil (.node (.node (.node (.leaf (.mult 26501 3740 (.ofNat 1) 0)) .nil) .nil) .nil)))) (.node (.node (.node (.node (.node (.node (.leaf (.trans [(1628201, .ofNat 1)] 0)) .nil) .nil) .nil) (.node (.node (.node (.leaf (.mult 42841 3917 (.ofNat 1) 0)) .nil) .nil) .nil)) (.node (.node (.node (.node (.leaf (.trans [(17393869, .negSucc 1)] 0)) .nil) .nil) .nil) (.node (.node (.node (.leaf (.trans [(13716191, .ofNat 1)] 0)) .nil) .nil) .nil))) (.node (.node .nil (.node (.node (.node (.leaf (.mult 33601 4027 (.ofNat 1) 0)) .nil) .nil) .nil)) (.node (.node (.node (.node (.leaf (.trans [(482356991, .ofNat 1), (700456327, .negSucc 0)] 0)) .nil) .nil) .nil) (.node (.node (.node (.leaf (.trans [(20959, .ofNat 1), (20963, .negSucc 0)] 0)) .nil) .nil) .nil))))) (.node (.node (.node (.node .nil (.node (.node (.node (.leaf (.mult 33317 3887 (.ofNat 1) 0)) .nil) .nil) .nil)) (.node (.node (.node (.node (.leaf (.mult 9181 3802 (.ofNat 1) 0)) .nil) .nil) .nil) (.node (.node (.node (.leaf (.trans [(14556379, .ofNat 1)] 0)) .nil) .nil) .nil))) (.node .nil (.node .nil (.node (.node (.node (.leaf (.mult 26557 3748 (.ofNat 1) 0)) .nil) .nil) .nil)))) (.node (.node (.node .nil (.node (.node (.node (.leaf (.mult 33409 3934 (.ofNat 1) 0)) .nil) .nil) .nil)) (.node (.node (.node (.node (.leaf (.mult 7883 3867 (.ofNat 1) 0)) .nil) .nil) .nil) .nil)) (.node (.node .nil (.node (.node (.node (.leaf (.trans [(35982769, .ofNat 1)] 0)) .nil) .nil) .nil)) (.node .nil (.node (.node (.node (.leaf (.mult 46349 4901 (.ofNat 1) 0)) .nil) .nil) .nil))))))

def jac333 : JTree := .node (.node (.node (.node (.node (.node (.node .nil (.node (.node (.leaf (.mult 43759 4076 (.negSucc 0) 0)) .nil) .nil)) .nil) .nil) (.node (.node .nil (.node (.node (.node (.leaf (.mult 33469 3946 (.ofNat 1) 0)) .nil) .nil) .nil)) (.node (.node (.node (.node (.leaf (.mult 26711 3842 (.ofNat 1) 0)) .nil) .nil) .nil) .nil))) (.node (.node (.node .nil (.node (.node (.node (.leaf (.mult 5827 3904 (.ofNat 1) 0)) .nil) .nil) .nil)) (.node (.node (.node (.node (.leaf (.mult 26641 3809 (.ofNat 1) 0)) .nil) .nil) .nil) .nil)) (.node (.node .nil (.node (.node (.node (.leaf (.mult 43427 4021 (.ofNat 1) 0)) .nil) .nil) .nil)) (.node .nil (.node (.node (.node (.leaf (.mult 20959 4041 (.ofNat 1) 0)) .nil) .nil) .nil))))) (.node (.node (.node (.node .nil (.node (.node (.node (.leaf (.mult 11173 1682 (.negSucc 0) 0)) .nil) .nil) .nil)) (.node (.node (.node (.node (.leaf (.mult 6337 3797 (.ofNat 1) 0)) .nil) .nil) .nil) .nil)) (.node (.node .nil (.node (.node (.node (.leaf (.mult 26981 4017 (.ofNat 1) 0)) .nil) .nil) .nil)) .nil)) (.node (.node (.node .nil (.node (.node (.node (.leaf (.mult 26839 3907 (.ofNat 1) 0)) .nil) .nil) .nil)) (.node (.node (.node (.node (.leaf (.mult 11923 3840 (.ofNat 1) 0)) .nil) .nil) .nil) .nil)) (.node (.node .nil (.node (.node (.node (.leaf (.mult 43517 4032 (.ofNat 1) 0)) .nil) .nil) .nil)) (.node (.node (.node (.node (.leaf (.mult 35951 1675 (.ofNat 1) 0)) .nil) .nil) .nil) (.node (.node (.node (.leaf (.mult 43753 4074 (.ofNat 1) 0)) .nil) .nil) .nil)))))) (.node (.node (.node (.node (.node .nil (.node (.node (.node (.leaf (.mult 23197 1521 (.ofNat 1) 0)) .nil) .nil) .nil)) .nil) (.node (.node .nil (.node (.node (.node (.leaf (.mult 43037 3962 (.ofNat 1) 0)) .nil) .nil) .nil)) (.node .nil (.node (.node (.node (.leaf (.mult 27011 4056 (.ofNat 1) 0)) .nil) .nil) .nil)))) (.node (.node (.node .nil (.node (.node (.node (.leaf (.mult 26863 3911 (.ofNat 1) 0)) .nil) .nil) .nil)) (.node (.node (.node (.node (.leaf (.mult 9187 3824 (.ofNat 1) 0)) .nil) .nil) .nil) .nil)) (.node (.node .nil (.node (.node (.node (.leaf (.trans [(3275287, .negSucc 0)] 0)) .nil) .nil) .nil)) (.node .nil (.node (.node (.node (.leaf (.mult 9161 3751 (.ofNat 1) 0)) .nil) .nil) .nil))))) (.node (.node (.node (.node .nil (.node (.node (.node (.leaf (.mult 42751 3882 (.negSucc 0) 0)) .nil) .nil) .nil)) (.node (.node (.node (.node (.leaf (.mult 7877 3786 (.ofNat 1) 0)) .nil) .nil) .nil) .nil)) (.node (.node .nil (.node (.node (.node (.leaf (.mult 43237 3992 (.ofNat 1) 0)) .nil) .nil) .nil)) (.node .nil (.node (.node (.node (.leaf (.mult 14341 4004 (.ofNat 1) 0)) .nil) .nil) .nil)))) (.node (.node (.node .nil (.node (.node (.node (.leaf (.mult 42899 3930 (.ofNat 1) 0)) .nil) .nil) .nil)) (.node (.node (.node (.node (.leaf (.mult 6343 3858 (.ofNat 1) 0)) .nil) .nil) .nil) .nil)) (.node (.node (.node (.node (.node (.leaf (.mult 7283 1456 (.ofNat 1) 0)) .nil) .nil) .nil) (.node (.node (.node (.leaf (.mult 33161 3760 (.ofNat 1) 0)) .nil) .nil) .nil)) (.node .nil (.node (.node (.node (.leaf (.mult 33629 4037 (.ofNat 1) 0)) .nil) .nil) .nil))))))

def jac334 : JTree := .node (.node (.node (.node (.node (.node .nil (.node (.node (.node (.leaf (.mult 29723 1670 (.negSucc 0) 0)) .nil) .nil) .nil)) (.node (.node (.node (.node (.leaf (.mult 14281 3754 (.negSucc 0) 0)) .nil) .nil) .nil) (.node (.node (.node (.leaf (.trans [(7753391, .ofNat 1)] 0)) .nil) .nil) .nil))) (.node (.node .nil (.node (.node (.node (.leaf (.mult 43003 3955 (.ofNat 1) 0)) .nil) .nil) .nil)) (.node (.node (.node (.node (.leaf (.trans [(11048489, .ofNat 1)] 0)) .nil) .nil) .nil) .nil))) (.node (.node (.node .nil (.node (.node (.node (.leaf (.mult 26891 3918 (.ofNat 1) 0)) .nil) .nil) .nil)) (.node (.node (.node (.node (.leaf (.mult 9209 3829 (.ofNat 1) 0)) .nil) .nil) .nil) (.node (.node (.node (.leaf (.trans [(93157633, .negSucc 0), (99592463, .ofNat 1)] 0)) .nil) .nil) .nil))) (.node (.node .nil (.node (.node (.node (.leaf (.mult 33581 3998 (.ofNat 1) 0)) .nil) .nil) .nil)) (.node .nil (.node (.node (.node (.leaf (.mult 42463 3729 (.ofNat 1) 0)) .nil) .nil) .nil))))) (.node (.node (.node (.node .nil (.node (.node (.node (.leaf (.trans [(88130183, .negSucc 0)] 0)) .nil) .nil) .nil)) (.node (.node (.node (.node (.leaf (.mult 20611 3781 (.ofNat 1) 0)) .nil) .nil) .nil) .nil)) (.node .nil (.node .nil (.node (.node (.node (.leaf (.mult 43313 4003 (.ofNat 1) 0)) (.leaf (.trans [(1, .ofNat 1)] 0))) .nil) .nil)))) (.node (.node (.node .nil (.node (.node (.node (.leaf (.mult 43063 3966 (.ofNat 1) 0)) .nil) .nil) .nil)) (.node (.node (.node (.node (.leaf (.trans [(14410783, .ofNat 1)] 0)) .nil) .nil) .nil) (.node (.node (.node (.leaf (.mult 12497 3838 (.ofNat 1) 0)) .nil) .nil) .nil))) (.node (.node .nil (.node (.node (.node (.leaf (.mult 43403 4018 (.ofNat 1) 0)) .nil) .nil) .nil)) (.node (.node (.node (.node (.leaf (.trans [(1097986919, .ofNat 1)] 0)) .nil) .nil) .nil) (.node (.node (.node (.leaf (.mult 35051 4896 (.ofNat 1) 0)) (.leaf (.trans [(47269, .ofNat 1)] 0))) .nil) .nil)))))) (.node (.node (.node (.node (.node .nil (.node (.node (.node (.leaf (.mult 5023 1520 (.ofNat 1) 0)) .nil) .nil) .nil)) (.node .nil (.node (.node (.node (.leaf (.mult 20551 3769 (.ofNat 1) 0)) .nil) .nil) .nil))) (.node (.node .nil (.node (.node (.node (.leaf (.trans [(1797599, .negSucc 0)] 0)) .nil) .nil) .nil)) (.node .nil (.node (.node (.node (.leaf (.mult 33679 4057 (.ofNat 1) 0)) .nil) .nil) .nil)))) (.node (.node (.node (.node (.node (.node (.leaf (.trans [(36756557, .negSucc 0), (6299606359, .ofNat 1), (8759927359, .negSucc 0)] 0)) .nil) .nil) .nil) (.node (.node (.node (.leaf (.mult 42797 3900 (.ofNat 1) 0)) .nil) .nil) .nil)) (.node (.node (.node (.node (.leaf (.mult 42589 3825 (.ofNat 1) 0)) .nil) .nil) .nil) .nil)) (.node .nil (.node .nil (.node (.node (.node (.leaf (.mult 43651 4063 (.ofNat 1) 0)) (.leaf (.trans [(15467, .ofNat 1)] 0))) .nil) .nil))))) (.node (.node (.node (.node .nil (.node (.node (.node (.leaf (.mult 33329 3891 (.ofNat 1) 0)) .nil) .nil) .nil)) (.node (.node (.node (.node (.leaf (.mult 20681 3793 (.ofNat 1) 0)) .nil) .nil) .nil) (.node (.node (.node (.leaf (.trans [(8929027, .ofNat 1)] 0)) .nil) .nil) .nil))) (.node .nil (.node .nil (.node (.node (.node (.leaf (.mult 20443 3721 (.ofNat 1) 0)) .nil) .nil) .nil)))) (.node (.node (.node .nil (.node (.node (.node (.leaf (.mult 33427 3937 (.ofNat 1) 0)) .nil) .nil) .nil)) (.node (.node (.node (.node (.leaf (.trans [(3369427, .ofNat 1), (4287527, .ofNat 1)] 0)) .nil) .nil) .nil) (.node (.node (.node (.leaf (.mult 43543 4039 (.ofNat 1) 0)) .nil) .nil) .nil))) (.node .nil (.node .nil (.node (.node (.node (.leaf (.mult 43331 4012 (.ofNat 1) 0)) .nil) .nil) .nil))))))

def jac335 : JTree := .node (.node (.node (.node (.node (.node (.node .nil (.node (.node (.leaf (.mult 47221 4996 (.ofNat 1) 0)) .nil) .nil)) (.node (.node (.node (.leaf (.trans [(466338833, .negSucc 0)] 0)) .nil) .nil) .nil)) (.node .nil (.node (.node (.node (.leaf (.trans [(16722379, .ofNat 1)] 0)) .nil) .nil) .nil))) (.node (.node .nil (.node (.node (.node (.leaf (.mult 33457 3941 (.ofNat 1) 0)) .nil) .nil) .nil)) (.node (.node (.node (.node (.leaf (.mult 9227 3864 (.ofNat 1) 0)) .nil) .nil) .nil) (.node (.node (.node (.leaf (.mult 42473 3738 (.ofNat 1) 0)) .nil) .nil) .nil)))) (.node (.node (.node .nil (.node (.node (.node (.leaf (.mult 26813 3894 (.ofNat 1) 0)) .nil) .nil) .nil)) (.node (.node (.node (.node (.leaf (.mult 20717 3806 (.ofNat 1) 0)) .nil) .nil) .nil) (.node (.node (.node (.leaf (.trans [(701754631, .ofNat 1)] 0)) .nil) .nil) .nil))) (.node (.node .nil (.node (.node (.node (.leaf (.mult 43207 3990 (.ofNat 1) 0)) .nil) .nil) .nil)) (.node .nil (.node (.node (.node (.leaf (.mult 20483 3725 (.ofNat 1) 0)) .nil) .nil) .nil))))) (.node (.node (.node (.node .nil (.node (.node (.node (.leaf (.mult 2797 1568 (.negSucc 0) 0)) .nil) .nil) .nil)) (.node (.node (.node (.node (.leaf (.mult 33199 3776 (.negSucc 0) 0)) .nil) .nil) .nil) (.node (.node (.node (.leaf (.mult 33211 3798 (.ofNat 1) 0)) .nil) .nil) .nil))) (.node (.node .nil (.node (.node (.node (.leaf (.trans [(1675403, .negSucc 0)] 0)) .nil) .nil) .nil)) .nil)) (.node (.node (.node (.node (.node (.node (.leaf (.trans [(216143, .negSucc 0), (231073, .ofNat 1)] 0)) .nil) .nil) .nil) (.node (.node (.node (.leaf (.mult 33347 3902 (.negSucc 0) 0)) .nil) .nil) .nil)) .nil) (.node (.node .nil (.node (.node (.node (.leaf (.mult 43283 3999 (.ofNat 1) 0)) .nil) .nil) .nil)) (.node (.node (.node (.node (.leaf (.mult 15461 1460 (.negSucc 0) 0)) .nil) .nil) .nil) (.node (.node (.node (.leaf (.mult 16477 4064 (.ofNat 1) 0)) (.leaf (.mult 1117 1570 (.ofNat 1) 0))) .nil) .nil)))))) (.node (.node (.node (.node (.node .nil (.node (.node (.node (.leaf (.trans [(1468891373, .negSucc 0)] 0)) .nil) .nil) .nil)) (.node (.node (.node (.node (.leaf (.trans [(44584103, .ofNat 1)] 0)) .nil) .nil) .nil) .nil)) (.node (.node .nil (.node (.node (.node (.leaf (.mult 43013 3957 (.ofNat 1) 0)) .nil) .nil) .nil)) (.node (.node (.node (.node (.leaf (.mult 14321 3853 (.ofNat 1) 0)) .nil) .nil) .nil) (.node (.node (.node (.leaf (.mult 26723 3870 (.ofNat 1) 0)) .nil) .nil) .nil)))) (.node (.node (.node .nil (.node (.node (.node (.leaf (.mult 26903 3922 (.ofNat 1) 0)) .nil) .nil) .nil)) (.node .nil (.node (.node (.node (.leaf (.mult 20719 3807 (.ofNat 1) 0)) .nil) .nil) .nil))) (.node (.node .nil (.node (.node (.node (.leaf (.mult 33647 4050 (.ofNat 1) 0)) .nil) .nil) .nil)) (.node (.node (.node (.node (.leaf (.trans [(3983801, .negSucc 0)] 0)) .nil) .nil) .nil) (.node (.node (.node (.leaf (.mult 9257 4068 (.ofNat 1) 0)) .nil) .nil) .nil))))) (.node (.node (.node (.node .nil (.node (.node (.node (.leaf (.mult 26759 3881 (.ofNat 1) 0)) .nil) .nil) .nil)) (.node (.node (.node (.node (.leaf (.trans [(44657663, .negSucc 0)] 0)) .nil) .nil) .nil) .nil)) (.node .nil (.node .nil (.node (.node (.node (.leaf (.mult 14347 4005 (.ofNat 1) 0)) .nil) .nil) .nil)))) (.node (.node (.node .nil (.node (.node (.node (.leaf (.mult 43093 3968 (.ofNat 1) 0)) .nil) .nil) .nil)) (.node (.node (.node (.node (.leaf (.mult 14323 3854 (.ofNat 1) 0)) .nil) .nil) .nil) (.node (.node (.node (.leaf (.mult 42727 3876 (.ofNat 1) 0)) .nil) .nil) .nil))) (.node (.node .nil (.node (.node (.node (.leaf (.mult 20929 4002 (.ofNat 1) 0)) .nil) .nil) .nil)) (.node .nil (.node (.node (.node (.leaf (.mult 35201 4952 (.ofNat 1) 0)) .nil) .nil) .nil))))))

def jac336 : JTree := .node (.node (.node (.node (.node (.node (.node .nil (.node (.node (.leaf (.mult 47269 4999 (.negSucc 0) 0)) .nil) .nil)) .nil) (.node (.node (.node (.node (.leaf (.trans [(669083, .negSucc 0)] 0)) .nil) .nil) .nil) (.node (.node (.node (.leaf (.trans [(21384661, .ofNat 1)] 0)) .nil) .nil) .nil))) (.node (.node .nil (.node (.node (.node (.leaf (.mult 33487 3950 (.ofNat 1) 0)) .nil) .nil) .nil)) (.node (.node (.node (.node (.leaf (.mult 42649 3845 (.ofNat 1) 0)) .nil) .nil) .nil) .nil))) (.node (.node (.node .nil (.node (.node (.node (.leaf (.trans [(1716253807, .ofNat 1)] 0)) .nil) .nil) .nil)) (.node (.node (.node (.node (.leaf (.mult 26699 3819 (.ofNat 1) 0)) .nil) .nil) .nil) .nil)) (.node .nil (.node .nil (.node (.node (.node (.leaf (.mult 42487 3741 (.ofNat 1) 0)) .nil) .nil) .nil))))) (.node (.node (.node (.node .nil (.node (.node (.node (.leaf (.mult 20809 3929 (.ofNat 1) 0)) .nil) .nil) .nil)) (.node (.node (.node (.node (.leaf (.mult 42533 3782 (.negSucc 0) 0)) .nil) .nil) .nil) .nil)) (.node (.node .nil (.node (.node (.node (.leaf (.trans [(4192703, .ofNat 1)] 0)) .nil) .nil) .nil)) .nil)) (.node (.node (.node .nil (.node (.node (.node (.leaf (.mult 26921 3925 (.ofNat 1) 0)) .nil) .nil) .nil)) (.node (.node (.node (.node (.leaf (.mult 26701 3841 (.ofNat 1) 0)) .nil) .nil) .nil) .nil)) (.node (.node .nil (.node (.node (.node (.leaf (.mult 43189 3987 (.ofNat 1) 0)) .nil) .nil) .nil)) (.node .nil (.node (.node (.node (.leaf (.mult 6917 4075 (.ofNat 1) 0)) (.leaf (.trans [(2417, .ofNat 1)] 0))) .nil) .nil)))))) (.node (.node (.node (.node (.node .nil (.node (.node (.node (.leaf (.mult 23603 1679 (.ofNat 1) 0)) .nil) .nil) .nil)) (.node (.node (.node (.node (.leaf (.mult 20549 3768 (.ofNat 1) 0)) .nil) .nil) .nil) .nil)) (.node (.node .nil (.node (.node (.node (.leaf (.mult 20897 3980 (.negSucc 0) 0)) .nil) .nil) .nil)) .nil)) (.node (.node (.node (.node (.node (.node (.leaf (.trans [(125449, .negSucc 0), (21500363, .ofNat 1), (29897363, .negSucc 0)] 0)) .nil) .nil) .nil) (.node (.node (.node (.leaf (.mult 26881 3916 (.ofNat 1) 0)) .nil) .nil) .nil)) (.node (.node (.node (.node (.leaf (.mult 42641 3833 (.ofNat 1) 0)) .nil) .nil) .nil) .nil)) (.node (.node .nil (.node (.node (.node (.leaf (.mult 33599 4026 (.ofNat 1) 0)) .nil) .nil) .nil)) (.node (.node (.node (.node (.leaf (.trans [(183318101, .ofNat 1), (266205997, .negSucc 0)] 0)) .nil) .nil) .nil) (.node (.node (.node (.leaf (.trans [(20921, .ofNat 1), (20929, .negSucc 0)] 0)) .nil) .nil) .nil))))) (.node (.node (.node (.node .nil (.node (.node (.node (.leaf (.mult 33311 3886 (.ofNat 1) 0)) .nil) .nil) .nil)) (.node (.node (.node (.node (.leaf (.mult 10321 3780 (.ofNat 1) 0)) .nil) .nil) .nil) .nil)) (.node (.node .nil (.node (.node (.node (.leaf (.trans [(2967617, .negSucc 0)] 0)) .nil) .nil) .nil)) (.node .nil (.node (.node (.node (.leaf (.mult 43649 4060 (.ofNat 1) 0)) .nil) .nil) .nil)))) (.node (.node (.node .nil (.node (.node (.node (.leaf (.mult 42901 3933 (.ofNat 1) 0)) .nil) .nil) .nil)) (.node (.node (.node (.node (.leaf (.trans [(4030459, .ofNat 1)] 0)) .nil) .nil) .nil) (.node (.node (.node (.leaf (.mult 42709 3869 (.ofNat 1) 0)) .nil) .nil) .nil))) (.node .nil (.node (.node (.node (.node (.leaf (.trans [(9705012391, .negSucc 0)] 0)) .nil) .nil) .nil) (.node (.node (.node (.leaf (.mult 35053 4899 (.ofNat 1) 0)) .nil) .nil) .nil))))))

def jac337 : JTree := .node (.node (.node (.node (.node (.node (.node .nil (.node (.node (.leaf (.mult 47251 4998 (.ofNat 1) 0)) .nil) .nil)) .nil) (.node (.node (.node (.node (.leaf (.trans [(7283, .ofNat 1)] 0)) .nil) .nil) .nil) (.node (.node (.node (.leaf (.trans [(15050153, .ofNat 1)] 0)) .nil) .nil) .nil))) (.node (.node .nil (.node (.node (.node (.leaf (.mult 42953 3945 (.ofNat 1) 0)) .nil) .nil) .nil)) (.node (.node (.node (.node (.leaf (.trans [(20244811, .ofNat 1)] 0)) .nil) .nil) .nil) (.node (.node (.node (.leaf (.mult 43391 4013 (.ofNat 1) 0)) .nil) .nil) .nil)))) (.node (.node (.node .nil (.node (.node (.node (.leaf (.mult 3559 3898 (.ofNat 1) 0)) .nil) .nil) .nil)) (.node (.node (.node (.node (.leaf (.mult 26647 3810 (.ofNat 1) 0)) .nil) .nil) .nil) (.node (.node (.node (.leaf (.trans [(5381897, .ofNat 1)] 0)) .nil) .nil) .nil))) (.node (.node .nil (.node (.node (.node (.leaf (.mult 43451 4023 (.ofNat 1) 0)) .nil) .nil) .nil)) (.node .nil (.node (.node (.node (.leaf (.mult 14251 3749 (.ofNat 1) 0)) .nil) .nil) .nil))))) (.node (.node (.node (.node .nil (.node (.node (.node (.leaf (.mult 11161 1680 (.negSucc 0) 0)) .nil) .nil) .nil)) (.node (.node (.node (.node (.leaf (.mult 6911 3795 (.ofNat 1) 0)) .nil) .nil) .nil) .nil)) (.node .nil (.node .nil (.node (.node (.node (.leaf (.mult 33301 3872 (.ofNat 1) 0)) .nil) .nil) .nil)))) (.node (.node (.node .nil (.node (.node (.node (.leaf (.mult 42821 3906 (.negSucc 0) 0)) .nil) .nil) .nil)) .nil) (.node (.node .nil (.node (.node (.node (.leaf (.mult 33617 4033 (.ofNat 1) 0)) .nil) .nil) .nil)) (.node .nil (.node (.node (.node (.leaf (.mult 16433 4006 (.ofNat 1) 0)) (.leaf (.trans [(613, .ofNat 1)] 0))) .nil) .nil)))))) (.node (.node (.node (.node (.node .nil (.node (.node (.node (.leaf (.mult 23053 1462 (.ofNat 1) 0)) .nil) .nil) .nil)) (.node (.node (.node (.node (.leaf (.mult 9173 3764 (.ofNat 1) 0)) .nil) .nil) .nil) .nil)) (.node (.node .nil (.node (.node (.node (.leaf (.mult 33547 3961 (.ofNat 1) 0)) .nil) .nil) .nil)) (.node .nil (.node (.node (.node (.leaf (.mult 26737 3874 (.ofNat 1) 0)) .nil) .nil) .nil)))) (.node (.node (.node .nil (.node (.node (.node (.leaf (.mult 26861 3910 (.ofNat 1) 0)) .nil) .nil) .nil)) (.node (.node (.node (.node (.leaf (.mult 42577 3823 (.negSucc 0) 0)) .nil) .nil) .nil) (.node (.node (.node (.leaf (.trans [(11586577, .ofNat 1)] 0)) .nil) .nil) .nil))) (.node (.node .nil (.node (.node (.node (.leaf (.trans [(2385841, .negSucc 0)] 0)) .nil) .nil) .nil)) (.node .nil (.node (.node (.node (.leaf (.mult 9277 4069 (.ofNat 1) 0)) .nil) .nil) .nil))))) (.node (.node (.node (.node .nil (.node (.node (.node (.leaf (.trans [(10734517, .negSucc 0)] 0)) .nil) .nil) .nil)) (.node (.node (.node (.node (.leaf (.mult 9851 3788 (.ofNat 1) 0)) .nil) .nil) .nil) (.node (.node (.node (.leaf (.trans [(6952763, .ofNat 1)] 0)) .nil) .nil) .nil))) (.node .nil (.node .nil (.node (.node (.node (.leaf (.mult 14387 4059 (.ofNat 1) 0)) .nil) .nil) .nil)))) (.node (.node .nil (.node (.node (.node (.node (.leaf (.mult 4547 3861 (.ofNat 1) 0)) .nil) .nil) .nil) .nil)) (.node (.node (.node (.node (.node (.leaf (.mult 7307 1466 (.ofNat 1) 0)) .nil) .nil) .nil) (.node (.node (.node (.leaf (.mult 33181 3765 (.ofNat 1) 0)) .nil) .nil) .nil)) (.node .nil (.node (.node (.node (.leaf (.mult 33619 4035 (.ofNat 1) 0)) .nil) .nil) .nil))))))

def jac338 : JTree := .node (.node (.node (.node (.node .nil (.node (.node (.node (.node (.leaf (.trans [(43638857, .negSucc 0)] 0)) .nil) .nil) .nil) (.node (.node (.node (.leaf (.trans [(15185711, .ofNat 1)] 0)) .nil) .nil) .nil))) (.node (.node .nil (.node (.node (.node (.leaf (.mult 33493 3953 (.ofNat 1) 0)) .nil) .nil) .nil)) (.node (.node (.node (.node (.leaf (.trans [(12963751, .ofNat 1)] 0)) .nil) .nil) .nil) .nil))) (.node (.node (.node .nil (.node (.node (.node (.leaf (.trans [(4579793, .ofNat 1)] 0)) .nil) .nil) .nil)) (.node (.node (.node (.node (.leaf (.mult 20747 3820 (.ofNat 1) 0)) .nil) .nil) .nil) (.node (.node (.node (.leaf (.trans [(92301667, .negSucc 0), (100664791, .ofNat 1)] 0)) .nil) .nil) .nil))) (.node (.node .nil (.node (.node (.node (.leaf (.mult 43271 3997 (.ofNat 1) 0)) .nil) .nil) .nil)) (.node .nil (.node (.node (.node (.leaf (.mult 9137 3727 (.ofNat 1) 0)) .nil) .nil) .nil))))) (.node (.node (.node (.node .nil (.node (.node (.node (.leaf (.trans [(86072669, .negSucc 0)] 0)) .nil) .nil) .nil)) (.node (.node (.node (.node (.leaf (.mult 10321 3780 (.negSucc 0) 0)) .nil) .nil) .nil) .nil)) (.node .nil (.node .nil (.node (.node (.node (.leaf (.mult 26947 3975 (.ofNat 1) 0)) .nil) .nil) .nil)))) (.node (.node (.node .nil (.node (.node (.node (.leaf (.mult 43051 3965 (.ofNat 1) 0)) .nil) .nil) .nil)) (.node (.node (.node (.node (.leaf (.trans [(12594529, .ofNat 1)] 0)) .nil) .nil) .nil) (.node (.node (.node (.leaf (.mult 20759 3837 (.ofNat 1) 0)) .nil) .nil) .nil))) (.node (.node .nil (.node (.node (.node (.leaf (.mult 26993 4044 (.ofNat 1) 0)) .nil) .nil) .nil)) (.node .nil (.node (.node (.node (.leaf (.mult 42509 3753 (.ofNat 1) 0)) (.leaf (.trans [(46771, .negSucc 0)] 0))) .nil) .nil)))))) (.node (.node (.node (.node (.node .nil (.node (.node (.node (.leaf (.mult 5051 1524 (.negSucc 0) 0)) .nil) .nil) .nil)) (.node (.node (.node (.node (.leaf (.mult 26591 3772 (.negSucc 0) 0)) .nil) .nil) .nil) (.node (.node (.node (.leaf (.mult 26627 3778 (.ofNat 1) 0)) .nil) .nil) .nil))) (.node (.node .nil (.node (.node (.node (.leaf (.mult 26951 3978 (.negSucc 0) 0)) .nil) .nil) .nil)) (.node .nil (.node (.node (.node (.leaf (.mult 26729 3871 (.ofNat 1) 0)) .nil) .nil) .nil)))) (.node (.node (.node (.node (.node (.node (.leaf (.mult 5573 1465 (.ofNat 1) 0)) .nil) .nil) .nil) (.node (.node (.node (.leaf (.trans [(1327559267, .ofNat 1)] 0)) .nil) .nil) .nil)) (.node (.node (.node (.node (.leaf (.trans [(8328767, .ofNat 2)] 0)) .nil) .nil) .nil) .nil)) (.node .nil (.node .nil (.node (.node (.node (.leaf (.mult 16453 4062 (.ofNat 1) 0)) (.leaf (.mult 15467 1468 (.ofNat 1) 0))) .nil) .nil))))) (.node (.node (.node (.node .nil (.node (.node (.node (.leaf (.mult 42787 3890 (.ofNat 1) 0)) .nil) .nil) .nil)) (.node (.node (.node (.node (.leaf (.mult 20663 3792 (.ofNat 1) 0)) .nil) .nil) .nil) (.node (.node (.node (.leaf (.mult 20693 3799 (.ofNat 1) 0)) .nil) .nil) .nil))) (.node .nil (.node .nil (.node (.node (.node (.leaf (.mult 20477 3722 (.ofNat 1) 0)) .nil) .nil) .nil)))) (.node (.node (.node .nil (.node (.node (.node (.leaf (.mult 42929 3938 (.ofNat 1) 0)) .nil) .nil) .nil)) (.node (.node (.node (.node (.leaf (.mult 42701 3862 (.ofNat 1) 0)) .nil) .nil) .nil) .nil)) (.node (.node .nil (.node (.node (.node (.leaf (.trans [(15723863, .ofNat 1)] 0)) .nil) .nil) .nil)) (.node (.node (.node (.node (.leaf (.mult 23189 1519 (.ofNat 1) 0)) .nil) .nil) .nil) (.node (.node (.node (.leaf (.mult 47237 4997 (.ofNat 1) 0)) .nil) .nil) .nil))))))

def jac339 : JTree := .node (.node (.node (.node (.node (.node (.node .nil (.node (.node (.leaf (.mult 46351 4902 (.ofNat 1) 0)) .nil) .nil)) .nil) (.node (.node (.node (.node (.leaf (.trans [(2777, .ofNat 1)] 0)) .nil) .nil) .nil) .nil)) (.node (.node .nil (.node (.node (.node (.leaf (.mult 33461 3942 (.ofNat 1) 0)) .nil) .nil) .nil)) (.node (.node (.node (.node (.leaf (.mult 42667 3847 (.ofNat 1) 0)) .nil) .nil) .nil) .nil))) (.node (.node (.node .nil (.node (.node (.node (.leaf (.mult 7433 3897 (.ofNat 1) 0)) .nil) .nil) .nil)) (.node (.node (.node (.node (.leaf (.mult 20707 3805 (.ofNat 1) 0)) .nil) .nil) .nil) (.node (.node (.node (.leaf (.trans [(2397653, .ofNat 1)] 0)) .nil) .nil) .nil))) (.node (.node .nil (.node (.node (.node (.leaf (.mult 43591 4045 (.ofNat 1) 0)) .nil) .nil) .nil)) (.node .nil (.node (.node (.node (.leaf (.mult 14389 4061 (.ofNat 1) 0)) .nil) .nil) .nil))))) (.node (.node (.node (.node .nil (.node (.node (.node (.leaf (.mult 3253 1591 (.negSucc 0) 0)) .nil) .nil) .nil)) (.node (.node (.node (.node (.leaf (.mult 26597 3777 (.ofNat 1) 0)) .nil) .nil) .nil) .nil)) (.node (.node .nil (.node (.node (.node (.leaf (.trans [(1406891, .negSucc 0)] 0)) .nil) .nil) .nil)) .nil)) (.node (.node (.node .nil (.node (.node (.node (.leaf (.mult 26821 3903 (.ofNat 1) 0)) .nil) .nil) .nil)) (.node (.node (.node (.node (.leaf (.trans [(10708679, .ofNat 1)] 0)) .nil) .nil) .nil) .nil)) (.node (.node .nil (.node (.node (.node (.leaf (.trans [(2346683, .negSucc 0)] 0)) .nil) .nil) .nil)) (.node (.node (.node (.node (.leaf (.mult 35969 1677 (.ofNat 1) 0)) .nil) .nil) .nil) (.node (.node (.node (.leaf (.mult 16447 4010 (.ofNat 1) 0)) .nil) .nil) .nil)))))) (.node (.node (.node (.node .nil (.node (.node (.node (.node (.leaf (.mult 16363 3763 (.negSucc 1) 0)) .nil) .nil) .nil) (.node (.node (.node (.leaf (.trans [(15218227, .ofNat 1)] 0)) .nil) .nil) .nil))) (.node (.node .nil (.node (.node (.node (.leaf (.mult 33533 3959 (.ofNat 1) 0)) .nil) .nil) .nil)) .nil)) (.node (.node (.node .nil (.node (.node (.node (.leaf (.mult 33349 3912 (.ofNat 1) 0)) .nil) .nil) .nil)) (.node .nil (.node (.node (.node (.leaf (.mult 33287 3836 (.ofNat 1) 0)) .nil) .nil) .nil))) (.node (.node .nil (.node (.node (.node (.leaf (.mult 33641 4049 (.ofNat 1) 0)) .nil) .nil) .nil)) (.node (.node (.node (.node (.leaf (.trans [(3996929, .ofNat 1)] 0)) .nil) .nil) .nil) (.node (.node (.node (.leaf (.mult 9157 3746 (.ofNat 1) 0)) .nil) .nil) .nil))))) (.node (.node (.node (.node .nil (.node (.node (.node (.leaf (.trans [(10736023, .ofNat 1)] 0)) .nil) .nil) .nil)) (.node (.node (.node (.node (.leaf (.mult 20639 3787 (.ofNat 1) 0)) .nil) .nil) .nil) .nil)) (.node .nil (.node .nil (.node (.node (.node (.leaf (.mult 20899 3981 (.ofNat 1) 0)) .nil) .nil) .nil)))) (.node (.node (.node .nil (.node (.node (.node (.leaf (.mult 43117 3970 (.ofNat 1) 0)) .nil) .nil) .nil)) (.node (.node (.node (.node (.leaf (.trans [(4796453, .ofNat 1)] 0)) .nil) .nil) .nil) .nil)) (.node (.node (.node (.node (.node (.leaf (.mult 2777 1453 (.ofNat 1) 0)) .nil) .nil) .nil) (.node (.node (.node (.leaf (.mult 20947 4034 (.ofNat 1) 0)) .nil) .nil) .nil)) (.node (.node (.node (.node (.leaf (.trans [(177268603667, .ofNat 1), (257421199099, .negSucc 0)] 0)) .nil) .nil) .nil) (.node (.node (.node (.leaf (.mult 47207 4995 (.ofNat 1) 0)) .nil) .nil) .nil))))))

def jac340 : JTree := .node (.node (.node (.node (.node (.node (.node (.node (.node (.leaf (.trans [(331, .negSucc 0)] 0)) .nil) .nil) .nil) (.node (.node (.node (.leaf (.mult 29531 1523 (.ofNat 1) 0)) .nil) .nil) .nil)) (.node (.node (.node (.node (.leaf (.mult 5821 3759 (.ofNat 1) 0)) .nil) .nil) .nil) (.node (.node (.node (.leaf (.mult 20563 3770 (.ofNat 1) 0)) .nil) .nil) .nil))) (.node (.node .nil (.node (.node (.node (.leaf (.mult 42979 3951 (.ofNat 1) 0)) .nil) .nil) .nil)) (.node (.node (.node (.node (.leaf (.mult 42689 3852 (.ofNat 1) 0)) .nil) .nil) .nil) .nil))) (.node (.node (.node .nil (.node (.node (.node (.leaf (.mult 33359 3919 (.ofNat 1) 0)) .nil) .nil) .nil)) (.node (.node (.node (.node (.leaf (.mult 26693 3818 (.ofNat 1) 0)) .nil) .nil) .nil) (.node (.node (.node (.leaf (.trans [(15842076067, .negSucc 0), (2715130340729, .ofNat 1), (3775528691729, .negSucc 0)] 0)) .nil) .nil) .nil))) (.node (.node .nil (.node (.node (.node (.leaf (.mult 33569 3994 (.ofNat 1) 0)) .nil) .nil) .nil)) (.node .nil (.node (.node (.node (.leaf (.mult 20509 3731 (.ofNat 1) 0)) .nil) .nil) .nil))))) (.node (.node (.node (.node .nil (.node (.node (.node (.leaf (.trans [(91000873, .ofNat 1)] 0)) .nil) .nil) .nil)) (.node (.node (.node (.node (.leaf (.mult 20627 3784 (.ofNat 1) 0)) .nil) .nil) .nil) .nil)) (.node .nil (.node .nil (.node (.node (.node (.leaf (.mult 43633 4058 (.ofNat 1) 0)) .nil) .nil) .nil)))) (.node (.node (.node .nil (.node (.node (.node (.leaf (.mult 42863 3927 (.ofNat 1) 0)) .nil) .nil) .nil)) (.node (.node (.node (.node (.leaf (.mult 26713 3843 (.ofNat 1) 0)) .nil) .nil) .nil) .nil)) (.node (.node .nil (.node (.node (.node (.leaf (.mult 43577 4042 (.ofNat 1) 0)) .nil) .nil) .nil)) (.node (.node (.node (.node (.leaf (.mult 35977 1678 (.ofNat 1) 0)) .nil) .nil) .nil) (.node (.node (.node (.leaf (.mult 33107 3737 (.ofNat 1) 0)) (.leaf (.trans [(43759, .negSucc 0)] 0))) .nil) .nil)))))) (.node (.node (.node (.node (.node .nil (.node (.node (.node (.leaf (.mult 3779 1464 (.ofNat 1) 0)) .nil) .nil) .nil)) (.node (.node (.node (.node (.leaf (.mult 20543 3767 (.ofNat 1) 0)) .nil) .nil) .nil) .nil)) (.node (.node .nil (.node (.node (.node (.leaf (.mult 20857 3973 (.negSucc 0) 0)) .nil) .nil) .nil)) .nil)) (.node (.node (.node (.node (.node (.node (.leaf (.mult 5569 1458 (.ofNat 1) 0)) .nil) .nil) .nil) (.node (.node (.node (.leaf (.trans [(142426259, .ofNat 1)] 0)) .nil) .nil) .nil)) (.node (.node (.node (.node (.leaf (.mult 14293 3835 (.ofNat 1) 0)) .nil) .nil) .nil) .nil)) (.node (.node .nil (.node (.node (.node (.leaf (.mult 43487 4030 (.ofNat 1) 0)) .nil) .nil) .nil)) (.node .nil (.node (.node (.node (.leaf (.trans [(20939, .ofNat 1), (20947, .negSucc 0)] 0)) .nil) .nil) .nil))))) (.node (.node (.node (.node .nil (.node (.node (.node (.leaf (.mult 26777 3888 (.ofNat 1) 0)) .nil) .nil) .nil)) (.node (.node (.node (.node (.leaf (.mult 33203 3790 (.negSucc 0) 0)) .nil) .nil) .nil) (.node (.node (.node (.leaf (.mult 26633 3804 (.ofNat 1) 0)) .nil) .nil) .nil))) (.node .nil (.node .nil (.node (.node (.node (.leaf (.mult 20479 3724 (.ofNat 1) 0)) .nil) .nil) .nil)))) (.node (.node (.node .nil (.node (.node (.node (.leaf (.mult 42923 3935 (.ofNat 1) 0)) .nil) .nil) .nil)) (.node (.node (.node (.node (.leaf (.mult 9239 3868 (.ofNat 1) 0)) .nil) .nil) .nil) .nil)) (.node .nil (.node .nil (.node (.node (.node (.leaf (.mult 35221 4955 (.ofNat 1) 0)) .nil) .nil) .nil))))))

end BP.EL
