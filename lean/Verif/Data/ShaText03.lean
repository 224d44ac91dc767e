/-!
# Text of `data/circ/sha256.txt`, part 4 of 11

Generated by `tools/gen_circuits.py`.
-/

namespace Verif.Data

/-- Lines 36869-49156 of `data/circ/sha256.txt`, 128 per string. -/
def shaBlocks03 : List String := [
"2 1 93146 39673 39646 XOR\n2 1 39646 39647 39645 AND\n2 1 39645 39673 39674 XOR\n1 1 39674 39650 INV\n2 1 95182 121742 39764 XOR\n2 1 39763 39764 39762 AND\n2 1 39762 121742 121743 XOR\n2 1 97231 121743 39766 XOR\n2 1 77065 121804 39853 XOR\n2 1 39853 39854 39852 AND\n2 1 39852 121804 121805 XOR\n2 1 3705 121805 39857 XOR\n2 1 3192 91145 108040 XOR\n2 1 82953 77065 131919 XOR\n2 1 131919 131888 78345 XOR\n2 1 77065 131888 55936 XOR\n2 1 55935 55936 55934 AND\n2 1 55934 131888 131889 XOR\n2 1 82954 131889 55938 XOR\n2 1 80393 134802 60165 XOR\n2 1 60165 60166 60164 AND\n2 1 60164 134802 134803 XOR\n2 1 78858 134803 60169 XOR\n2 1 81929 134926 60345 XOR\n2 1 152 134926 60346 XOR\n2 1 60345 60346 60344 AND\n2 1 60344 134926 134927 XOR\n2 1 134958 134927 80394 XOR\n2 1 80394 78858 134834 XOR\n2 1 134834 134803 77066 XOR\n2 1 77066 3705 121836 XOR\n2 1 121836 121805 95183 XOR\n2 1 97231 95183 121774 XOR\n2 1 121774 121743 93147 XOR\n1 1 93147 39690 INV\n2 1 39690 39674 91146 XOR\n2 1 93147 39674 39649 XOR\n2 1 39649 39650 39648 AND\n2 1 39648 39674 39675 XOR\n1 1 39675 39653 INV\n2 1 95183 121743 39767 XOR\n2 1 39766 39767 39765 AND\n2 1 39765 121743 121744 XOR\n2 1 97232 121744 39769 XOR\n2 1 77066 121805 39856 XOR\n2 1 39856 39857 39855 AND\n2 1 39855 121805 121806 XOR\n2 1 3706 121806 39860 XOR\n2 1 3193 91146 108041 XOR\n2 1 82954 77066 131920 XOR\n2 1 131920 131889 78346 XOR\n2 1 77066 131889 55939 XOR\n2 1 55938 55939 55937 AND\n2 1 55937 131889 131890 XOR\n2 1 82955 131890 55941 XOR\n2 1 80394 134803 60168 XOR\n2 1 60168 60169 60167 AND\n2 1 60167 134803 134804 XOR\n2 1 78859 134804 60172 XOR\n2 1 81930 134927 60348 XOR\n2 1 153 134927 60349 XOR\n2 1 60348 60349 60347 AND\n2 1 60347 134927 134928 XOR\n2 1 134959 134928 80395 XOR\n2 1 80395 78859 134835 XOR\n2 1 134835 134804 77067 XOR\n2 1 77067 3706 121837 XOR\n2 1 121837 121806 95184 XOR\n2 1 97232 95184 121775 XOR\n2 1 121775 121744 93148 XOR\n1 1 93148 39691 INV\n2 1 39691 39675 91147 XOR\n2 1 93148 39675 39652 XOR\n2 1 39652 39653 39651 AND\n2 1 39651 39675 39676 XOR\n1 1 39676 39656 INV\n2 1 95184 121744 39770 XOR\n2 1 39769 39770 39768 AND\n2 1 39768 121744 121745 XOR\n2 1 97233 121745 39772 XOR\n2 1 77067 121806 39859 XOR\n2 1 39859 39860 39858 AND\n2 1 39858 121806 121807 XOR\n2 1 3707 121807 39863 XOR\n2 1 91147 85003 108104 XOR\n2 1 3194 91147 108042 XOR\n2 1 82955 77067 131921 XOR\n2 1 131921 131890 78347 XOR\n2 1 77067 131890 55942 XOR\n2 1 55941 55942 55940 AND\n2 1 55940 131890 131891 XOR\n2 1 82956 131891 55944 XOR\n2 1 80395 134804 60171 XOR\n2 1 60171 60172 60170 AND\n2 1 60170 134804 134805 XOR\n2 1 78860 134805 60175 XOR\n2 1 81931 134928 60351 XOR\n2 1 154 134928 60352 XOR\n2 1 60351 60352 60350 AND\n2 1 60350 134928 134929 XOR\n2 1 134960 134929 80396 XOR\n2 1 80396 78860 134836 XOR\n2 1 134836 134805 77068 XOR\n2 1 77068 3707 121838 XOR\n2 1 121838 121807 95185 XOR\n2 1 97233 95185 121776 XOR\n2 1 121776 121745 93149 XOR\n1 1 93149 39692 INV\n2 1 39692 39676 91148 XOR\n2 1 93149 39676 39655 XOR\n2 1 39655 39656 39654 AND\n2 1 39654 39676 39658 XOR\n2 1 95185 121745 39773 XOR\n2 1 39772 39773 39771 AND\n2 1 39771 121745 121746 XOR\n2 1 97234 121746 39775 XOR\n2 1 77068 121807 39862 XOR\n2 1 39862 39863 39861 AND\n2 1 39861 121807 121808 XOR\n2 1 3708 121808 39866 XOR\n2 1 91148 85004 108105 XOR\n2 1 3195 91148 108043 XOR\n2 1 82956 77068 131922 XOR\n2 1 131922 131891 78348 XOR\n2 1 77068 131891 55945 XOR\n2 1 55944 55945 55943 AND\n2 1 55943 131891 131892 XOR\n2 1 82957 131892 55947 XOR\n",
"2 1 80396 134805 60174 XOR\n2 1 60174 60175 60173 AND\n2 1 60173 134805 134806 XOR\n2 1 78861 134806 60178 XOR\n2 1 81932 134929 60354 XOR\n2 1 155 134929 60355 XOR\n2 1 60354 60355 60353 AND\n2 1 60353 134929 134930 XOR\n2 1 134961 134930 80397 XOR\n2 1 80397 78861 134837 XOR\n2 1 134837 134806 77069 XOR\n2 1 77069 3708 121839 XOR\n2 1 121839 121808 95186 XOR\n2 1 97234 95186 121777 XOR\n2 1 121777 121746 93150 XOR\n2 1 93150 39658 91149 XOR\n2 1 91149 39658 39657 AND\n2 1 39657 39658 39660 XOR\n2 1 95186 121746 39776 XOR\n2 1 39775 39776 39774 AND\n2 1 39774 121746 121747 XOR\n2 1 97235 121747 39778 XOR\n2 1 77069 121808 39865 XOR\n2 1 39865 39866 39864 AND\n2 1 39864 121808 121809 XOR\n2 1 3709 121809 39869 XOR\n2 1 91149 85005 108106 XOR\n2 1 3196 91149 108044 XOR\n2 1 82957 77069 131923 XOR\n2 1 131923 131892 78349 XOR\n2 1 77069 131892 55948 XOR\n2 1 55947 55948 55946 AND\n2 1 55946 131892 131893 XOR\n2 1 82958 131893 55950 XOR\n2 1 80397 134806 60177 XOR\n2 1 60177 60178 60176 AND\n2 1 60176 134806 134807 XOR\n2 1 78862 134807 60181 XOR\n2 1 81933 134930 60357 XOR\n2 1 156 134930 60358 XOR\n2 1 60357 60358 60356 AND\n2 1 60356 134930 134931 XOR\n2 1 134962 134931 80398 XOR\n2 1 80398 78862 134838 XOR\n2 1 134838 134807 77070 XOR\n2 1 77070 3709 121840 XOR\n2 1 121840 121809 95187 XOR\n2 1 97235 95187 121778 XOR\n2 1 121778 121747 93151 XOR\n2 1 93151 39660 91150 XOR\n2 1 91150 39660 39659 AND\n2 1 39659 39660 39662 XOR\n2 1 95187 121747 39779 XOR\n2 1 39778 39779 39777 AND\n2 1 39777 121747 121748 XOR\n2 1 97236 121748 39781 XOR\n2 1 77070 121809 39868 XOR\n2 1 39868 39869 39867 AND\n2 1 39867 121809 121810 XOR\n2 1 3710 121810 39872 XOR\n2 1 91150 85006 108107 XOR\n2 1 3197 91150 108045 XOR\n2 1 82958 77070 131924 XOR\n2 1 131924 131893 78350 XOR\n2 1 77070 131893 55951 XOR\n2 1 55950 55951 55949 AND\n2 1 55949 131893 131894 XOR\n2 1 82959 131894 55953 XOR\n2 1 80398 134807 60180 XOR\n2 1 60180 60181 60179 AND\n2 1 60179 134807 134808 XOR\n2 1 78863 134808 60184 XOR\n2 1 81934 134931 60360 XOR\n2 1 157 134931 60361 XOR\n2 1 60360 60361 60359 AND\n2 1 60359 134931 134932 XOR\n2 1 134963 134932 80399 XOR\n2 1 80399 78863 134839 XOR\n2 1 134839 134808 77071 XOR\n2 1 77071 3710 121841 XOR\n2 1 121841 121810 95188 XOR\n2 1 97236 95188 121779 XOR\n2 1 121779 121748 93152 XOR\n2 1 93152 39662 91151 XOR\n2 1 91151 39662 39661 AND\n2 1 39661 39662 39677 XOR\n2 1 95188 121748 39782 XOR\n2 1 39781 39782 39780 AND\n2 1 39780 121748 121749 XOR\n2 1 77071 121810 39871 XOR\n2 1 39871 39872 39870 AND\n2 1 39870 121810 121811 XOR\n2 1 91151 85007 108108 XOR\n2 1 3198 91151 108046 XOR\n2 1 82959 77071 131925 XOR\n2 1 131925 131894 78351 XOR\n2 1 77071 131894 55954 XOR\n2 1 55953 55954 55952 AND\n2 1 55952 131894 131895 XOR\n2 1 80399 134808 60183 XOR\n2 1 60183 60184 60182 AND\n2 1 60182 134808 134809 XOR\n2 1 81935 134932 60363 XOR\n2 1 158 134932 60364 XOR\n2 1 60363 60364 60362 AND\n2 1 60362 134932 134933 XOR\n2 1 134964 134933 80400 XOR\n2 1 80400 78864 134840 XOR\n2 1 134840 134809 77072 XOR\n2 1 77072 3711 121842 XOR\n2 1 121842 121811 95189 XOR\n2 1 97237 95189 121780 XOR\n2 1 121780 121749 93153 XOR\n2 1 93153 39677 91152 XOR\n2 1 91152 85008 108109 XOR\n2 1 3199 91152 108047 XOR\n2 1 82960 77072 131926 XOR\n2 1 131926 131895 78352 XOR\n2 1 3171 91124 108019 XOR\n2 1 3174 91127 108022 XOR\n2 1 3173 91126 108021 XOR\n2 1 91146 85002 108103 XOR\n2 1 3172 91125 108020 XOR\n2 1 3045 3109 73044 XOR\n2 1 3044 3108 73043 XOR\n2 1 3043 3107 73042 XOR\n2 1 3042 3106 73041 XOR\n2 1 3041 3105 73040 XOR\n",
"2 1 3040 3104 73039 XOR\n2 1 73044 73012 72980 AND\n2 1 73043 73011 72979 AND\n2 1 73042 73010 72978 AND\n2 1 73041 73009 72977 AND\n2 1 73040 73008 72976 AND\n2 1 73039 73007 72975 AND\n2 1 72980 3109 86998 XOR\n2 1 72979 3108 86997 XOR\n2 1 72978 3107 86996 XOR\n2 1 72977 3106 86995 XOR\n2 1 72976 3105 86994 XOR\n2 1 72975 3104 86993 XOR\n2 1 3045 3077 72916 XOR\n2 1 3044 3076 72915 XOR\n2 1 3043 3075 72914 XOR\n2 1 3042 3074 72913 XOR\n2 1 3041 3073 72912 XOR\n2 1 3040 3072 72911 XOR\n2 1 91123 107987 15881 XOR\n2 1 3170 107987 15880 XOR\n2 1 15880 15881 15879 AND\n2 1 15879 107987 107988 XOR\n2 1 91124 107988 15884 XOR\n2 1 3171 107988 15883 XOR\n2 1 15883 15884 15882 AND\n2 1 15882 107988 107989 XOR\n2 1 108020 107989 3556 XOR\n2 1 91125 107989 15887 XOR\n2 1 3172 107989 15886 XOR\n2 1 15886 15887 15885 AND\n2 1 15885 107989 107990 XOR\n2 1 108021 107990 3557 XOR\n2 1 3173 107990 15889 XOR\n2 1 91126 107990 15890 XOR\n2 1 15889 15890 15888 AND\n2 1 15888 107990 107991 XOR\n2 1 3174 107991 15892 XOR\n2 1 108022 107991 3558 XOR\n2 1 91127 107991 15893 XOR\n2 1 15892 15893 15891 AND\n2 1 15891 107991 107992 XOR\n2 1 91128 107992 15896 XOR\n2 1 3175 107992 15895 XOR\n2 1 15895 15896 15894 AND\n2 1 15894 107992 107993 XOR\n2 1 3176 107993 15898 XOR\n2 1 108024 107993 3560 XOR\n2 1 91129 107993 15899 XOR\n2 1 15898 15899 15897 AND\n2 1 15897 107993 107994 XOR\n2 1 108025 107994 3561 XOR\n2 1 3175 91128 108023 XOR\n2 1 108023 107992 3559 XOR\n2 1 91130 107994 15902 XOR\n2 1 3177 107994 15901 XOR\n2 1 15901 15902 15900 AND\n2 1 15900 107994 107995 XOR\n2 1 91131 107995 15905 XOR\n2 1 3178 107995 15904 XOR\n2 1 15904 15905 15903 AND\n2 1 15903 107995 107996 XOR\n2 1 108027 107996 3563 XOR\n2 1 91132 107996 15908 XOR\n2 1 3179 107996 15907 XOR\n2 1 15907 15908 15906 AND\n2 1 15906 107996 107997 XOR\n2 1 108028 107997 3564 XOR\n2 1 3180 107997 15910 XOR\n2 1 91133 107997 15911 XOR\n2 1 15910 15911 15909 AND\n2 1 15909 107997 107998 XOR\n2 1 91134 107998 15914 XOR\n2 1 108029 107998 3565 XOR\n2 1 3181 107998 15913 XOR\n2 1 15913 15914 15912 AND\n2 1 15912 107998 107999 XOR\n2 1 3182 107999 15916 XOR\n2 1 91135 107999 15917 XOR\n2 1 15916 15917 15915 AND\n2 1 15915 107999 108000 XOR\n2 1 108031 108000 3567 XOR\n2 1 3183 108000 15919 XOR\n2 1 108030 107999 3566 XOR\n2 1 108019 107988 3555 XOR\n2 1 91136 108000 15920 XOR\n2 1 15919 15920 15918 AND\n2 1 15918 108000 108001 XOR\n2 1 91137 108001 15923 XOR\n2 1 108032 108001 3568 XOR\n2 1 108026 107995 3562 XOR\n2 1 3184 108001 15922 XOR\n2 1 15922 15923 15921 AND\n2 1 15921 108001 108002 XOR\n2 1 108033 108002 3569 XOR\n2 1 3185 108002 15925 XOR\n2 1 91138 108002 15926 XOR\n2 1 15925 15926 15924 AND\n2 1 15924 108002 108003 XOR\n2 1 108034 108003 3570 XOR\n2 1 91139 108003 15929 XOR\n2 1 3186 108003 15928 XOR\n2 1 15928 15929 15927 AND\n2 1 15927 108003 108004 XOR\n2 1 108035 108004 3571 XOR\n2 1 91140 108004 15932 XOR\n2 1 3187 108004 15931 XOR\n2 1 15931 15932 15930 AND\n2 1 15930 108004 108005 XOR\n2 1 91141 108005 15935 XOR\n2 1 3188 108005 15934 XOR\n2 1 15934 15935 15933 AND\n2 1 108036 108005 3572 XOR\n2 1 15933 108005 108006 XOR\n2 1 108037 108006 3573 XOR\n2 1 91142 108006 15938 XOR\n2 1 3189 108006 15937 XOR\n2 1 15937 15938 15936 AND\n2 1 15936 108006 108007 XOR\n2 1 108038 108007 3574 XOR\n2 1 91143 108007 15941 XOR\n2 1 3190 108007 15940 XOR\n2 1 15940 15941 15939 AND\n2 1 15939 108007 108008 XOR\n2 1 3191 108008 15943 XOR\n2 1 91144 108008 15944 XOR\n2 1 15943 15944 15942 AND\n2 1 108039 108008 3575 XOR\n",
"2 1 15942 108008 108009 XOR\n2 1 108040 108009 3576 XOR\n2 1 91145 108009 15947 XOR\n2 1 3192 108009 15946 XOR\n2 1 15946 15947 15945 AND\n2 1 15945 108009 108010 XOR\n2 1 108041 108010 3577 XOR\n2 1 3193 108010 15949 XOR\n2 1 91146 108010 15950 XOR\n2 1 15949 15950 15948 AND\n2 1 15948 108010 108011 XOR\n2 1 3194 108011 15952 XOR\n2 1 108042 108011 3578 XOR\n2 1 91147 108011 15953 XOR\n2 1 15952 15953 15951 AND\n2 1 15951 108011 108012 XOR\n2 1 91148 108012 15956 XOR\n2 1 3195 108012 15955 XOR\n2 1 15955 15956 15954 AND\n2 1 108043 108012 3579 XOR\n2 1 15954 108012 108013 XOR\n2 1 108044 108013 3580 XOR\n2 1 3196 108013 15958 XOR\n2 1 91149 108013 15959 XOR\n2 1 15958 15959 15957 AND\n2 1 15957 108013 108014 XOR\n2 1 108045 108014 3581 XOR\n2 1 3197 108014 15961 XOR\n2 1 91142 84998 108099 XOR\n2 1 91145 85001 108102 XOR\n2 1 91144 85000 108101 XOR\n2 1 91143 84999 108100 XOR\n2 1 91150 108014 15962 XOR\n2 1 15961 15962 15960 AND\n2 1 15960 108014 108015 XOR\n2 1 108046 108015 3582 XOR\n2 1 91151 108015 15965 XOR\n2 1 3198 108015 15964 XOR\n2 1 15964 15965 15963 AND\n2 1 15963 108015 108016 XOR\n2 1 108047 108016 3583 XOR\n2 1 84982 108052 15980 XOR\n2 1 15979 15980 15978 AND\n2 1 15978 108052 108053 XOR\n2 1 84983 108053 15983 XOR\n2 1 108084 108053 3046 XOR\n2 1 3046 3110 73045 XOR\n2 1 73045 73013 72981 AND\n2 1 72981 3110 86999 XOR\n2 1 3046 3078 72917 XOR\n2 1 91127 108053 15982 XOR\n2 1 15982 15983 15981 AND\n2 1 15981 108053 108054 XOR\n2 1 108085 108054 3047 XOR\n2 1 91128 108054 15985 XOR\n2 1 84984 108054 15986 XOR\n2 1 15985 15986 15984 AND\n2 1 15984 108054 108055 XOR\n2 1 108086 108055 3048 XOR\n2 1 84985 108055 15989 XOR\n2 1 91129 108055 15988 XOR\n2 1 15988 15989 15987 AND\n2 1 15987 108055 108056 XOR\n2 1 108087 108056 3049 XOR\n2 1 84986 108056 15992 XOR\n2 1 91130 108056 15991 XOR\n2 1 15991 15992 15990 AND\n2 1 15990 108056 108057 XOR\n2 1 84987 108057 15995 XOR\n2 1 91131 108057 15994 XOR\n2 1 15994 15995 15993 AND\n2 1 108088 108057 3050 XOR\n2 1 15993 108057 108058 XOR\n2 1 108089 108058 3051 XOR\n2 1 84988 108058 15998 XOR\n2 1 91132 108058 15997 XOR\n2 1 15997 15998 15996 AND\n2 1 15996 108058 108059 XOR\n2 1 108090 108059 3052 XOR\n2 1 3052 3116 73051 XOR\n2 1 3051 3115 73050 XOR\n2 1 3050 3114 73049 XOR\n2 1 3049 3113 73048 XOR\n2 1 3048 3112 73047 XOR\n2 1 3047 3111 73046 XOR\n2 1 73051 73019 72987 AND\n2 1 73050 73018 72986 AND\n2 1 73049 73017 72985 AND\n2 1 73048 73016 72984 AND\n2 1 73047 73015 72983 AND\n2 1 73046 73014 72982 AND\n2 1 72987 3116 87005 XOR\n2 1 72986 3115 87004 XOR\n2 1 72985 3114 87003 XOR\n2 1 72984 3113 87002 XOR\n2 1 72983 3112 87001 XOR\n2 1 72982 3111 87000 XOR\n2 1 3052 3084 72923 XOR\n2 1 3051 3083 72922 XOR\n2 1 3050 3082 72921 XOR\n2 1 3049 3081 72920 XOR\n2 1 3048 3080 72919 XOR\n2 1 3047 3079 72918 XOR\n2 1 3041 3052 68174 XOR\n2 1 3040 3051 68173 XOR\n2 1 91133 108059 16000 XOR\n2 1 84989 108059 16001 XOR\n2 1 16000 16001 15999 AND\n2 1 15999 108059 108060 XOR\n2 1 91134 108060 16003 XOR\n2 1 84990 108060 16004 XOR\n2 1 16003 16004 16002 AND\n2 1 108091 108060 3053 XOR\n2 1 3053 3117 73052 XOR\n2 1 73052 73020 72988 AND\n2 1 72988 3117 87006 XOR\n2 1 3053 3085 72924 XOR\n2 1 3042 3053 68143 XOR\n2 1 16002 108060 108061 XOR\n2 1 108092 108061 3054 XOR\n2 1 84991 108061 16007 XOR\n2 1 91135 108061 16006 XOR\n2 1 16006 16007 16005 AND\n2 1 16005 108061 108062 XOR\n2 1 108093 108062 3055 XOR\n2 1 91136 108062 16009 XOR\n2 1 84992 108062 16010 XOR\n2 1 16009 16010 16008 AND\n",
"2 1 16008 108062 108063 XOR\n2 1 91137 108063 16012 XOR\n2 1 108094 108063 3056 XOR\n2 1 84993 108063 16013 XOR\n2 1 16012 16013 16011 AND\n2 1 16011 108063 108064 XOR\n2 1 91138 108064 16015 XOR\n2 1 84994 108064 16016 XOR\n2 1 16015 16016 16014 AND\n2 1 108095 108064 3057 XOR\n2 1 16014 108064 108065 XOR\n2 1 84995 108065 16019 XOR\n2 1 108096 108065 3058 XOR\n2 1 91139 108065 16018 XOR\n2 1 16018 16019 16017 AND\n2 1 16017 108065 108066 XOR\n2 1 84996 108066 16022 XOR\n2 1 108097 108066 3059 XOR\n2 1 91140 108066 16021 XOR\n2 1 16021 16022 16020 AND\n2 1 16020 108066 108067 XOR\n2 1 108098 108067 3060 XOR\n2 1 84997 108067 16025 XOR\n2 1 91141 108067 16024 XOR\n2 1 16024 16025 16023 AND\n2 1 16023 108067 108068 XOR\n2 1 108099 108068 3061 XOR\n2 1 84998 108068 16028 XOR\n2 1 91142 108068 16027 XOR\n2 1 16027 16028 16026 AND\n2 1 16026 108068 108069 XOR\n2 1 108100 108069 3062 XOR\n2 1 91143 108069 16030 XOR\n2 1 84999 108069 16031 XOR\n2 1 16030 16031 16029 AND\n2 1 16029 108069 108070 XOR\n2 1 85000 108070 16034 XOR\n2 1 108101 108070 3063 XOR\n2 1 91144 108070 16033 XOR\n2 1 16033 16034 16032 AND\n2 1 16032 108070 108071 XOR\n2 1 85001 108071 16037 XOR\n2 1 91145 108071 16036 XOR\n2 1 16036 16037 16035 AND\n2 1 16035 108071 108072 XOR\n2 1 85002 108072 16040 XOR\n2 1 108103 108072 3065 XOR\n2 1 91146 108072 16039 XOR\n2 1 16039 16040 16038 AND\n2 1 16038 108072 108073 XOR\n2 1 108102 108071 3064 XOR\n2 1 3065 3129 73064 XOR\n2 1 3064 3128 73063 XOR\n2 1 3063 3127 73062 XOR\n2 1 3062 3126 73061 XOR\n2 1 3061 3125 73060 XOR\n2 1 3060 3124 73059 XOR\n2 1 3059 3123 73058 XOR\n2 1 3058 3122 73057 XOR\n2 1 3057 3121 73056 XOR\n2 1 3056 3120 73055 XOR\n2 1 3055 3119 73054 XOR\n2 1 3054 3118 73053 XOR\n2 1 73064 73032 73000 AND\n2 1 73063 73031 72999 AND\n2 1 73062 73030 72998 AND\n2 1 73061 73029 72997 AND\n2 1 73060 73028 72996 AND\n2 1 73059 73027 72995 AND\n2 1 73058 73026 72994 AND\n2 1 73057 73025 72993 AND\n2 1 73056 73024 72992 AND\n2 1 73055 73023 72991 AND\n2 1 73054 73022 72990 AND\n2 1 73053 73021 72989 AND\n2 1 73000 3129 87018 XOR\n2 1 72999 3128 87017 XOR\n2 1 72998 3127 87016 XOR\n2 1 72997 3126 87015 XOR\n2 1 72996 3125 87014 XOR\n2 1 72995 3124 87013 XOR\n2 1 72994 3123 87012 XOR\n2 1 72993 3122 87011 XOR\n2 1 72992 3121 87010 XOR\n2 1 72991 3120 87009 XOR\n2 1 72990 3119 87008 XOR\n2 1 72989 3118 87007 XOR\n2 1 3065 3097 72936 XOR\n2 1 3064 3096 72935 XOR\n2 1 3063 3095 72934 XOR\n2 1 3062 3094 72933 XOR\n2 1 3061 3093 72932 XOR\n2 1 3060 3092 72931 XOR\n2 1 3059 3091 72930 XOR\n2 1 3058 3090 72929 XOR\n2 1 3057 3089 72928 XOR\n2 1 3056 3088 72927 XOR\n2 1 3055 3087 72926 XOR\n2 1 3054 3086 72925 XOR\n2 1 3065 3044 68166 XOR\n2 1 3064 3043 68165 XOR\n2 1 3063 3042 68164 XOR\n2 1 3062 3041 68163 XOR\n2 1 3061 3040 68162 XOR\n2 1 3054 3065 68155 XOR\n2 1 3053 3064 68154 XOR\n2 1 3052 3063 68153 XOR\n2 1 3051 3062 68152 XOR\n2 1 3050 3061 68151 XOR\n2 1 3049 3060 68150 XOR\n2 1 3048 3059 68149 XOR\n2 1 3047 3058 68148 XOR\n2 1 3046 3057 68147 XOR\n2 1 3045 3056 68146 XOR\n2 1 3044 3055 68145 XOR\n2 1 3043 3054 68144 XOR\n2 1 68174 3061 89072 XOR\n2 1 68173 3060 89071 XOR\n2 1 68166 3053 89064 XOR\n2 1 89064 87016 121462 XOR\n2 1 68165 3052 89063 XOR\n2 1 89063 87015 121461 XOR\n2 1 68164 3051 89062 XOR\n2 1 89062 87014 121460 XOR\n2 1 68163 3050 89061 XOR\n2 1 89061 87013 121459 XOR\n2 1 68162 3049 89060 XOR\n2 1 89060 87012 121458 XOR\n",
"2 1 68155 3042 89053 XOR\n2 1 89053 87005 121451 XOR\n2 1 68154 3041 89052 XOR\n2 1 89052 87004 121450 XOR\n2 1 68153 3040 89051 XOR\n2 1 89051 87003 121449 XOR\n2 1 68146 3065 89044 XOR\n2 1 89044 86996 121442 XOR\n2 1 68145 3064 89043 XOR\n2 1 89043 86995 121441 XOR\n2 1 68144 3063 89042 XOR\n2 1 89042 86994 121440 XOR\n2 1 68143 3062 89041 XOR\n2 1 89041 86993 121409 AND\n2 1 89041 86993 84945 XOR\n2 1 121440 121409 84946 XOR\n2 1 89042 121409 39057 XOR\n2 1 86994 121409 39058 XOR\n2 1 39057 39058 39056 AND\n2 1 39056 121409 121410 XOR\n2 1 121441 121410 84947 XOR\n2 1 89043 121410 39060 XOR\n2 1 86995 121410 39061 XOR\n2 1 39060 39061 39059 AND\n2 1 39059 121410 121411 XOR\n2 1 121442 121411 84948 XOR\n2 1 89044 121411 39063 XOR\n2 1 86996 121411 39064 XOR\n2 1 39063 39064 39062 AND\n2 1 39062 121411 121412 XOR\n2 1 86997 121412 39067 XOR\n2 1 91147 108073 16042 XOR\n2 1 108104 108073 3066 XOR\n2 1 3066 3130 73065 XOR\n2 1 73065 73033 73001 AND\n2 1 73001 3130 87019 XOR\n2 1 3066 3098 72937 XOR\n2 1 3066 3045 68167 XOR\n2 1 3055 3066 68156 XOR\n2 1 68167 3054 89065 XOR\n2 1 89065 87017 121463 XOR\n2 1 68156 3043 89054 XOR\n2 1 89054 87006 121452 XOR\n2 1 68147 3066 89045 XOR\n2 1 89045 86997 121443 XOR\n2 1 121443 121412 84949 XOR\n2 1 89045 121412 39066 XOR\n2 1 39066 39067 39065 AND\n2 1 39065 121412 121413 XOR\n2 1 86998 121413 39070 XOR\n2 1 85003 108073 16043 XOR\n2 1 16042 16043 16041 AND\n2 1 16041 108073 108074 XOR\n2 1 108105 108074 3067 XOR\n2 1 85004 108074 16046 XOR\n2 1 91148 108074 16045 XOR\n2 1 16045 16046 16044 AND\n2 1 16044 108074 108075 XOR\n2 1 108106 108075 3068 XOR\n2 1 91149 108075 16048 XOR\n2 1 85005 108075 16049 XOR\n2 1 16048 16049 16047 AND\n2 1 16047 108075 108076 XOR\n2 1 108107 108076 3069 XOR\n2 1 91150 108076 16051 XOR\n2 1 85006 108076 16052 XOR\n2 1 16051 16052 16050 AND\n2 1 16050 108076 108077 XOR\n2 1 91151 108077 16054 XOR\n2 1 85007 108077 16055 XOR\n2 1 108108 108077 3070 XOR\n2 1 16054 16055 16053 AND\n2 1 16053 108077 108078 XOR\n2 1 108109 108078 3071 XOR\n2 1 3071 3135 73070 XOR\n2 1 3070 3134 73069 XOR\n2 1 3069 3133 73068 XOR\n2 1 3068 3132 73067 XOR\n2 1 3067 3131 73066 XOR\n2 1 73070 73038 73006 AND\n2 1 73069 73037 73005 AND\n2 1 73068 73036 73004 AND\n2 1 73067 73035 73003 AND\n2 1 73066 73034 73002 AND\n2 1 73006 3135 87024 XOR\n2 1 89072 87024 121470 XOR\n2 1 73005 3134 87023 XOR\n2 1 89071 87023 121469 XOR\n2 1 73004 3133 87022 XOR\n2 1 73003 3132 87021 XOR\n2 1 73002 3131 87020 XOR\n2 1 3071 3103 72942 XOR\n2 1 3070 3102 72941 XOR\n2 1 3069 3101 72940 XOR\n2 1 3068 3100 72939 XOR\n2 1 3067 3099 72938 XOR\n2 1 3071 3050 68172 XOR\n2 1 3070 3049 68171 XOR\n2 1 3069 3048 68170 XOR\n2 1 3068 3047 68169 XOR\n2 1 3067 3046 68168 XOR\n2 1 3060 3071 68161 XOR\n2 1 3059 3070 68160 XOR\n2 1 3058 3069 68159 XOR\n2 1 3057 3068 68158 XOR\n2 1 3056 3067 68157 XOR\n2 1 68172 3059 89070 XOR\n2 1 89070 87022 121468 XOR\n2 1 68171 3058 89069 XOR\n2 1 89069 87021 121467 XOR\n2 1 68170 3057 89068 XOR\n2 1 89068 87020 121466 XOR\n2 1 68169 3056 89067 XOR\n2 1 89067 87019 121465 XOR\n2 1 68168 3055 89066 XOR\n2 1 89066 87018 121464 XOR\n2 1 68161 3048 89059 XOR\n2 1 89059 87011 121457 XOR\n2 1 68160 3047 89058 XOR\n2 1 89058 87010 121456 XOR\n2 1 68159 3046 89057 XOR\n2 1 89057 87009 121455 XOR\n2 1 68158 3045 89056 XOR\n2 1 89056 87008 121454 XOR\n2 1 68157 3044 89055 XOR\n2 1 89055 87007 121453 XOR\n2 1 68152 3071 89050 XOR\n2 1 89050 87002 121448 XOR\n",
"2 1 68151 3070 89049 XOR\n2 1 89049 87001 121447 XOR\n2 1 68150 3069 89048 XOR\n2 1 89048 87000 121446 XOR\n2 1 68149 3068 89047 XOR\n2 1 89047 86999 121445 XOR\n2 1 68148 3067 89046 XOR\n2 1 89046 86998 121444 XOR\n2 1 121444 121413 84950 XOR\n2 1 89046 121413 39069 XOR\n2 1 39069 39070 39068 AND\n2 1 39068 121413 121414 XOR\n2 1 121445 121414 84951 XOR\n2 1 89047 121414 39072 XOR\n2 1 86999 121414 39073 XOR\n2 1 39072 39073 39071 AND\n2 1 39071 121414 121415 XOR\n2 1 121446 121415 84952 XOR\n2 1 89048 121415 39075 XOR\n2 1 87000 121415 39076 XOR\n2 1 39075 39076 39074 AND\n2 1 39074 121415 121416 XOR\n2 1 121447 121416 84953 XOR\n2 1 89049 121416 39078 XOR\n2 1 87001 121416 39079 XOR\n2 1 39078 39079 39077 AND\n2 1 39077 121416 121417 XOR\n2 1 121448 121417 84954 XOR\n2 1 89050 121417 39081 XOR\n2 1 87002 121417 39082 XOR\n2 1 39081 39082 39080 AND\n2 1 39080 121417 121418 XOR\n2 1 121449 121418 84955 XOR\n2 1 89051 121418 39084 XOR\n2 1 87003 121418 39085 XOR\n2 1 39084 39085 39083 AND\n2 1 39083 121418 121419 XOR\n2 1 121450 121419 84956 XOR\n2 1 89052 121419 39087 XOR\n2 1 87004 121419 39088 XOR\n2 1 39087 39088 39086 AND\n2 1 39086 121419 121420 XOR\n2 1 121451 121420 84957 XOR\n2 1 89053 121420 39090 XOR\n2 1 87005 121420 39091 XOR\n2 1 39090 39091 39089 AND\n2 1 39089 121420 121421 XOR\n2 1 121452 121421 84958 XOR\n2 1 89054 121421 39093 XOR\n2 1 87006 121421 39094 XOR\n2 1 39093 39094 39092 AND\n2 1 39092 121421 121422 XOR\n2 1 121453 121422 84959 XOR\n2 1 89055 121422 39096 XOR\n2 1 87007 121422 39097 XOR\n2 1 39096 39097 39095 AND\n2 1 39095 121422 121423 XOR\n2 1 121454 121423 84960 XOR\n2 1 89056 121423 39099 XOR\n2 1 87008 121423 39100 XOR\n2 1 39099 39100 39098 AND\n2 1 39098 121423 121424 XOR\n2 1 121455 121424 84961 XOR\n2 1 89057 121424 39102 XOR\n2 1 87009 121424 39103 XOR\n2 1 39102 39103 39101 AND\n2 1 39101 121424 121425 XOR\n2 1 121456 121425 84962 XOR\n2 1 89058 121425 39105 XOR\n2 1 87010 121425 39106 XOR\n2 1 39105 39106 39104 AND\n2 1 39104 121425 121426 XOR\n2 1 121457 121426 84963 XOR\n2 1 89059 121426 39108 XOR\n2 1 87011 121426 39109 XOR\n2 1 39108 39109 39107 AND\n2 1 39107 121426 121427 XOR\n2 1 121458 121427 84964 XOR\n2 1 89060 121427 39111 XOR\n2 1 87012 121427 39112 XOR\n2 1 39111 39112 39110 AND\n2 1 39110 121427 121428 XOR\n2 1 121459 121428 84965 XOR\n2 1 89061 121428 39114 XOR\n2 1 87013 121428 39115 XOR\n2 1 39114 39115 39113 AND\n2 1 39113 121428 121429 XOR\n2 1 121460 121429 84966 XOR\n2 1 89062 121429 39117 XOR\n2 1 87014 121429 39118 XOR\n2 1 39117 39118 39116 AND\n2 1 39116 121429 121430 XOR\n2 1 121461 121430 84967 XOR\n2 1 89063 121430 39120 XOR\n2 1 87015 121430 39121 XOR\n2 1 39120 39121 39119 AND\n2 1 39119 121430 121431 XOR\n2 1 121462 121431 84968 XOR\n2 1 89064 121431 39123 XOR\n2 1 87016 121431 39124 XOR\n2 1 39123 39124 39122 AND\n2 1 39122 121431 121432 XOR\n2 1 121463 121432 84969 XOR\n2 1 89065 121432 39126 XOR\n2 1 87017 121432 39127 XOR\n2 1 39126 39127 39125 AND\n2 1 39125 121432 121433 XOR\n2 1 121464 121433 84970 XOR\n2 1 89066 121433 39129 XOR\n2 1 87018 121433 39130 XOR\n2 1 39129 39130 39128 AND\n2 1 39128 121433 121434 XOR\n2 1 121465 121434 84971 XOR\n2 1 89067 121434 39132 XOR\n2 1 87019 121434 39133 XOR\n2 1 39132 39133 39131 AND\n2 1 39131 121434 121435 XOR\n2 1 121466 121435 84972 XOR\n2 1 89068 121435 39135 XOR\n2 1 87020 121435 39136 XOR\n2 1 39135 39136 39134 AND\n2 1 39134 121435 121436 XOR\n2 1 121467 121436 84973 XOR\n2 1 89069 121436 39138 XOR\n2 1 87021 121436 39139 XOR\n2 1 39138 39139 39137 AND\n2 1 39137 121436 121437 XOR\n2 1 121468 121437 84974 XOR\n",
"2 1 89070 121437 39141 XOR\n2 1 87022 121437 39142 XOR\n2 1 39141 39142 39140 AND\n2 1 39140 121437 121438 XOR\n2 1 121469 121438 84975 XOR\n2 1 89071 121438 39144 XOR\n2 1 87023 121438 39145 XOR\n2 1 39144 39145 39143 AND\n2 1 39143 121438 121439 XOR\n2 1 121470 121439 84976 XOR\n2 1 65710 3583 65678 AND\n2 1 65709 3582 65677 AND\n2 1 65708 3581 65676 AND\n2 1 65707 3580 65675 AND\n2 1 65706 3579 65674 AND\n2 1 65705 3578 65673 AND\n2 1 65704 3577 65672 AND\n2 1 65703 3576 65671 AND\n2 1 65702 3575 65670 AND\n2 1 65701 3574 65669 AND\n2 1 65700 3573 65668 AND\n2 1 65699 3572 65667 AND\n2 1 65698 3571 65666 AND\n2 1 65697 3570 65665 AND\n2 1 65696 3569 65664 AND\n2 1 65695 3568 65663 AND\n2 1 65694 3567 65662 AND\n2 1 65693 3566 65661 AND\n2 1 65692 3565 65660 AND\n2 1 65691 3564 65659 AND\n2 1 65690 3563 65658 AND\n2 1 65689 3562 65657 AND\n2 1 65688 3561 65656 AND\n2 1 65687 3560 65655 AND\n2 1 65686 3559 65654 AND\n2 1 65685 3558 65653 AND\n2 1 65684 3557 65652 AND\n2 1 65683 3556 65651 AND\n2 1 65682 3555 65650 AND\n2 1 65681 3554 65649 AND\n2 1 65680 3553 65648 AND\n2 1 65679 3552 65647 AND\n2 1 65678 3647 99253 XOR\n2 1 65677 3646 99252 XOR\n2 1 65676 3645 99251 XOR\n2 1 65675 3644 99250 XOR\n2 1 65674 3643 99249 XOR\n2 1 65673 3642 99248 XOR\n2 1 65672 3641 99247 XOR\n2 1 65671 3640 99246 XOR\n2 1 65670 3639 99245 XOR\n2 1 65669 3638 99244 XOR\n2 1 65668 3637 99243 XOR\n2 1 65667 3636 99242 XOR\n2 1 65666 3635 99241 XOR\n2 1 65665 3634 99240 XOR\n2 1 65664 3633 99239 XOR\n2 1 65663 3632 99238 XOR\n2 1 65662 3631 99237 XOR\n2 1 65661 3630 99236 XOR\n2 1 65660 3629 99235 XOR\n2 1 65659 3628 99234 XOR\n2 1 65658 3627 99233 XOR\n2 1 65657 3626 99232 XOR\n2 1 65656 3625 99231 XOR\n2 1 65655 3624 99230 XOR\n2 1 65654 3623 99229 XOR\n2 1 65653 3622 99228 XOR\n2 1 65652 3621 99227 XOR\n2 1 65651 3620 99226 XOR\n2 1 65650 3619 99225 XOR\n2 1 65649 3618 99224 XOR\n2 1 65648 3617 99223 XOR\n2 1 65647 3616 99222 XOR\n2 1 3583 3615 65646 XOR\n2 1 3582 3614 65645 XOR\n2 1 3581 3613 65644 XOR\n2 1 3580 3612 65643 XOR\n2 1 3579 3611 65642 XOR\n2 1 3578 3610 65641 XOR\n2 1 3577 3609 65640 XOR\n2 1 3576 3608 65639 XOR\n2 1 3575 3607 65638 XOR\n2 1 3574 3606 65637 XOR\n2 1 3573 3605 65636 XOR\n2 1 3572 3604 65635 XOR\n2 1 3571 3603 65634 XOR\n2 1 3570 3602 65633 XOR\n2 1 3569 3601 65632 XOR\n2 1 3568 3600 65631 XOR\n2 1 3567 3599 65630 XOR\n2 1 3566 3598 65629 XOR\n2 1 3565 3597 65628 XOR\n2 1 3564 3596 65627 XOR\n2 1 3563 3595 65626 XOR\n2 1 3562 3594 65625 XOR\n2 1 3561 3593 65624 XOR\n2 1 3560 3592 65623 XOR\n2 1 3559 3591 65622 XOR\n2 1 3558 3590 65621 XOR\n2 1 3557 3589 65620 XOR\n2 1 3556 3588 65619 XOR\n2 1 3555 3587 65618 XOR\n2 1 3554 3586 65617 XOR\n2 1 3553 3585 65616 XOR\n2 1 3552 3584 65615 XOR\n2 1 3557 3562 62254 XOR\n2 1 3556 3561 62253 XOR\n2 1 3555 3560 62252 XOR\n2 1 3554 3559 62251 XOR\n2 1 3553 3558 62250 XOR\n2 1 3552 3557 62249 XOR\n2 1 3583 3556 62248 XOR\n2 1 3582 3555 62247 XOR\n2 1 3581 3554 62246 XOR\n2 1 3580 3553 62245 XOR\n2 1 3579 3552 62244 XOR\n2 1 3578 3583 62243 XOR\n2 1 3577 3582 62242 XOR\n2 1 3576 3581 62241 XOR\n2 1 3575 3580 62240 XOR\n2 1 3574 3579 62239 XOR\n2 1 3573 3578 62238 XOR\n2 1 3572 3577 62237 XOR\n2 1 3571 3576 62236 XOR\n2 1 3570 3575 62235 XOR\n2 1 3569 3574 62234 XOR\n2 1 3568 3573 62233 XOR\n",
"2 1 3567 3572 62232 XOR\n2 1 3566 3571 62231 XOR\n2 1 3565 3570 62230 XOR\n2 1 3564 3569 62229 XOR\n2 1 3563 3568 62228 XOR\n2 1 3562 3567 62227 XOR\n2 1 3561 3566 62226 XOR\n2 1 3560 3565 62225 XOR\n2 1 3559 3564 62224 XOR\n2 1 3558 3563 62223 XOR\n2 1 62254 3576 101301 XOR\n2 1 101301 99253 121656 XOR\n2 1 62253 3575 101300 XOR\n2 1 101300 99252 121655 XOR\n2 1 62252 3574 101299 XOR\n2 1 101299 99251 121654 XOR\n2 1 62251 3573 101298 XOR\n2 1 101298 99250 121653 XOR\n2 1 62250 3572 101297 XOR\n2 1 101297 99249 121652 XOR\n2 1 62249 3571 101296 XOR\n2 1 101296 99248 121651 XOR\n2 1 62248 3570 101295 XOR\n2 1 101295 99247 121650 XOR\n2 1 62247 3569 101294 XOR\n2 1 101294 99246 121649 XOR\n2 1 62246 3568 101293 XOR\n2 1 101293 99245 121648 XOR\n2 1 62245 3567 101292 XOR\n2 1 101292 99244 121647 XOR\n2 1 62244 3566 101291 XOR\n2 1 101291 99243 121646 XOR\n2 1 62243 3565 101290 XOR\n2 1 101290 99242 121645 XOR\n2 1 62242 3564 101289 XOR\n2 1 101289 99241 121644 XOR\n2 1 62241 3563 101288 XOR\n2 1 101288 99240 121643 XOR\n2 1 62240 3562 101287 XOR\n2 1 101287 99239 121642 XOR\n2 1 62239 3561 101286 XOR\n2 1 101286 99238 121641 XOR\n2 1 62238 3560 101285 XOR\n2 1 101285 99237 121640 XOR\n2 1 62237 3559 101284 XOR\n2 1 101284 99236 121639 XOR\n2 1 62236 3558 101283 XOR\n2 1 101283 99235 121638 XOR\n2 1 62235 3557 101282 XOR\n2 1 101282 99234 121637 XOR\n2 1 62234 3556 101281 XOR\n2 1 101281 99233 121636 XOR\n2 1 62233 3555 101280 XOR\n2 1 101280 99232 121635 XOR\n2 1 62232 3554 101279 XOR\n2 1 101279 99231 121634 XOR\n2 1 62231 3553 101278 XOR\n2 1 101278 99230 121633 XOR\n2 1 62230 3552 101277 XOR\n2 1 101277 99229 121632 XOR\n2 1 62229 3583 101276 XOR\n2 1 101276 99228 121631 XOR\n2 1 62228 3582 101275 XOR\n2 1 101275 99227 121630 XOR\n2 1 62227 3581 101274 XOR\n2 1 101274 99226 121629 XOR\n2 1 62226 3580 101273 XOR\n2 1 101273 99225 121628 XOR\n2 1 62225 3579 101272 XOR\n2 1 101272 99224 121627 XOR\n2 1 62224 3578 101271 XOR\n2 1 101271 99223 121626 XOR\n2 1 62223 3577 101270 XOR\n2 1 101270 99222 121595 AND\n2 1 101270 99222 97174 XOR\n2 1 97174 95126 121471 AND\n2 1 97174 95126 91089 XOR\n2 1 95127 121471 39233 XOR\n2 1 121626 121595 97175 XOR\n2 1 97175 95127 121502 XOR\n2 1 121502 121471 91090 XOR\n2 1 97175 121471 39232 XOR\n2 1 39232 39233 39231 AND\n2 1 39231 121471 121472 XOR\n2 1 95128 121472 39236 XOR\n2 1 101271 121595 39412 XOR\n2 1 99223 121595 39413 XOR\n2 1 39412 39413 39411 AND\n2 1 39411 121595 121596 XOR\n2 1 121627 121596 97176 XOR\n2 1 97176 95128 121503 XOR\n2 1 121503 121472 93093 XOR\n1 1 93093 91091 INV\n2 1 97176 121472 39235 XOR\n2 1 39235 39236 39234 AND\n2 1 39234 121472 121473 XOR\n2 1 95129 121473 39239 XOR\n2 1 101272 121596 39415 XOR\n2 1 99224 121596 39416 XOR\n2 1 39415 39416 39414 AND\n2 1 39414 121596 121597 XOR\n2 1 121628 121597 97177 XOR\n2 1 97177 95129 121504 XOR\n2 1 121504 121473 93094 XOR\n1 1 93094 39221 INV\n2 1 39221 93093 91092 XOR\n2 1 93094 93093 39147 XOR\n2 1 39147 91091 39146 AND\n2 1 39146 93093 39149 XOR\n2 1 97177 121473 39238 XOR\n2 1 39238 39239 39237 AND\n2 1 39237 121473 121474 XOR\n2 1 95130 121474 39242 XOR\n2 1 101273 121597 39418 XOR\n2 1 99225 121597 39419 XOR\n2 1 39418 39419 39417 AND\n2 1 39417 121597 121598 XOR\n2 1 121629 121598 97178 XOR\n2 1 97178 95130 121505 XOR\n2 1 121505 121474 93095 XOR\n2 1 93095 39149 91093 XOR\n2 1 91093 39149 39148 AND\n2 1 39148 39149 39151 XOR\n2 1 97178 121474 39241 XOR\n2 1 39241 39242 39240 AND\n2 1 39240 121474 121475 XOR\n2 1 95131 121475 39245 XOR\n2 1 101274 121598 39421 XOR\n",
"2 1 99226 121598 39422 XOR\n2 1 39421 39422 39420 AND\n2 1 39420 121598 121599 XOR\n2 1 121630 121599 97179 XOR\n2 1 97179 95131 121506 XOR\n2 1 121506 121475 93096 XOR\n2 1 93096 39151 91094 XOR\n2 1 91094 39151 39150 AND\n2 1 39150 39151 39211 XOR\n1 1 39211 39154 INV\n2 1 97179 121475 39244 XOR\n2 1 39244 39245 39243 AND\n2 1 39243 121475 121476 XOR\n2 1 95132 121476 39248 XOR\n2 1 101275 121599 39424 XOR\n2 1 99227 121599 39425 XOR\n2 1 39424 39425 39423 AND\n2 1 39423 121599 121600 XOR\n2 1 121631 121600 97180 XOR\n2 1 97180 95132 121507 XOR\n2 1 121507 121476 93097 XOR\n1 1 93097 39222 INV\n2 1 39222 39211 91095 XOR\n2 1 93097 39211 39153 XOR\n2 1 39153 39154 39152 AND\n2 1 39152 39211 39212 XOR\n1 1 39212 39157 INV\n2 1 97180 121476 39247 XOR\n2 1 39247 39248 39246 AND\n2 1 39246 121476 121477 XOR\n2 1 95133 121477 39251 XOR\n2 1 101276 121600 39427 XOR\n2 1 99228 121600 39428 XOR\n2 1 39427 39428 39426 AND\n2 1 39426 121600 121601 XOR\n2 1 121632 121601 97181 XOR\n2 1 97181 95133 121508 XOR\n2 1 121508 121477 93098 XOR\n1 1 93098 39223 INV\n2 1 39223 39212 91096 XOR\n2 1 93098 39212 39156 XOR\n2 1 39156 39157 39155 AND\n2 1 39155 39212 39213 XOR\n1 1 39213 39160 INV\n2 1 97181 121477 39250 XOR\n2 1 39250 39251 39249 AND\n2 1 39249 121477 121478 XOR\n2 1 95134 121478 39254 XOR\n2 1 101277 121601 39430 XOR\n2 1 99229 121601 39431 XOR\n2 1 39430 39431 39429 AND\n2 1 39429 121601 121602 XOR\n2 1 121633 121602 97182 XOR\n2 1 97182 95134 121509 XOR\n2 1 121509 121478 93099 XOR\n1 1 93099 39224 INV\n2 1 39224 39213 91097 XOR\n2 1 93099 39213 39159 XOR\n2 1 39159 39160 39158 AND\n2 1 39158 39213 39162 XOR\n2 1 97182 121478 39253 XOR\n2 1 39253 39254 39252 AND\n2 1 39252 121478 121479 XOR\n2 1 95135 121479 39257 XOR\n2 1 101278 121602 39433 XOR\n2 1 99230 121602 39434 XOR\n2 1 39433 39434 39432 AND\n2 1 39432 121602 121603 XOR\n2 1 121634 121603 97183 XOR\n2 1 97183 95135 121510 XOR\n2 1 121510 121479 93100 XOR\n2 1 93100 39162 91098 XOR\n2 1 91098 39162 39161 AND\n2 1 39161 39162 39164 XOR\n2 1 97183 121479 39256 XOR\n2 1 39256 39257 39255 AND\n2 1 39255 121479 121480 XOR\n2 1 95136 121480 39260 XOR\n2 1 101279 121603 39436 XOR\n2 1 99231 121603 39437 XOR\n2 1 39436 39437 39435 AND\n2 1 39435 121603 121604 XOR\n2 1 121635 121604 97184 XOR\n2 1 97184 95136 121511 XOR\n2 1 121511 121480 93101 XOR\n2 1 93101 39164 91099 XOR\n2 1 91099 39164 39163 AND\n2 1 39163 39164 39166 XOR\n2 1 97184 121480 39259 XOR\n2 1 39259 39260 39258 AND\n2 1 39258 121480 121481 XOR\n2 1 95137 121481 39263 XOR\n2 1 101280 121604 39439 XOR\n2 1 99232 121604 39440 XOR\n2 1 39439 39440 39438 AND\n2 1 39438 121604 121605 XOR\n2 1 121636 121605 97185 XOR\n2 1 97185 95137 121512 XOR\n2 1 121512 121481 93102 XOR\n2 1 93102 39166 91100 XOR\n2 1 91100 39166 39165 AND\n2 1 39165 39166 39168 XOR\n2 1 97185 121481 39262 XOR\n2 1 39262 39263 39261 AND\n2 1 39261 121481 121482 XOR\n2 1 95138 121482 39266 XOR\n2 1 101281 121605 39442 XOR\n2 1 99233 121605 39443 XOR\n2 1 39442 39443 39441 AND\n2 1 39441 121605 121606 XOR\n2 1 121637 121606 97186 XOR\n2 1 97186 95138 121513 XOR\n2 1 121513 121482 93103 XOR\n2 1 93103 39168 91101 XOR\n2 1 91101 39168 39167 AND\n2 1 39167 39168 39214 XOR\n1 1 39214 39171 INV\n2 1 97186 121482 39265 XOR\n2 1 39265 39266 39264 AND\n2 1 39264 121482 121483 XOR\n2 1 95139 121483 39269 XOR\n2 1 101282 121606 39445 XOR\n2 1 99234 121606 39446 XOR\n2 1 39445 39446 39444 AND\n2 1 39444 121606 121607 XOR\n2 1 121638 121607 97187 XOR\n2 1 97187 95139 121514 XOR\n2 1 121514 121483 93104 XOR\n",
"1 1 93104 39225 INV\n2 1 39225 39214 91102 XOR\n2 1 93104 39214 39170 XOR\n2 1 39170 39171 39169 AND\n2 1 39169 39214 39173 XOR\n2 1 97187 121483 39268 XOR\n2 1 39268 39269 39267 AND\n2 1 39267 121483 121484 XOR\n2 1 95140 121484 39272 XOR\n2 1 101283 121607 39448 XOR\n2 1 99235 121607 39449 XOR\n2 1 39448 39449 39447 AND\n2 1 39447 121607 121608 XOR\n2 1 121639 121608 97188 XOR\n2 1 97188 95140 121515 XOR\n2 1 121515 121484 93105 XOR\n2 1 93105 39173 91103 XOR\n2 1 91103 39173 39172 AND\n2 1 39172 39173 39215 XOR\n1 1 39215 39176 INV\n2 1 97188 121484 39271 XOR\n2 1 39271 39272 39270 AND\n2 1 39270 121484 121485 XOR\n2 1 95141 121485 39275 XOR\n2 1 101284 121608 39451 XOR\n2 1 99236 121608 39452 XOR\n2 1 39451 39452 39450 AND\n2 1 39450 121608 121609 XOR\n2 1 121640 121609 97189 XOR\n2 1 97189 95141 121516 XOR\n2 1 121516 121485 93106 XOR\n1 1 93106 39226 INV\n2 1 39226 39215 91104 XOR\n2 1 93106 39215 39175 XOR\n2 1 39175 39176 39174 AND\n2 1 39174 39215 39178 XOR\n2 1 97189 121485 39274 XOR\n2 1 39274 39275 39273 AND\n2 1 39273 121485 121486 XOR\n2 1 95142 121486 39278 XOR\n2 1 101285 121609 39454 XOR\n2 1 99237 121609 39455 XOR\n2 1 39454 39455 39453 AND\n2 1 39453 121609 121610 XOR\n2 1 121641 121610 97190 XOR\n2 1 97190 95142 121517 XOR\n2 1 121517 121486 93107 XOR\n2 1 93107 39178 91105 XOR\n2 1 91105 39178 39177 AND\n2 1 39177 39178 39180 XOR\n2 1 97190 121486 39277 XOR\n2 1 39277 39278 39276 AND\n2 1 39276 121486 121487 XOR\n2 1 95143 121487 39281 XOR\n2 1 101286 121610 39457 XOR\n2 1 99238 121610 39458 XOR\n2 1 39457 39458 39456 AND\n2 1 39456 121610 121611 XOR\n2 1 121642 121611 97191 XOR\n2 1 97191 95143 121518 XOR\n2 1 121518 121487 93108 XOR\n2 1 93108 39180 91106 XOR\n2 1 91106 39180 39179 AND\n2 1 39179 39180 39216 XOR\n1 1 39216 39183 INV\n2 1 97191 121487 39280 XOR\n2 1 39280 39281 39279 AND\n2 1 39279 121487 121488 XOR\n2 1 95144 121488 39284 XOR\n2 1 101287 121611 39460 XOR\n2 1 99239 121611 39461 XOR\n2 1 39460 39461 39459 AND\n2 1 39459 121611 121612 XOR\n2 1 121643 121612 97192 XOR\n2 1 97192 95144 121519 XOR\n2 1 121519 121488 93109 XOR\n1 1 93109 39227 INV\n2 1 39227 39216 91107 XOR\n2 1 93109 39216 39182 XOR\n2 1 39182 39183 39181 AND\n2 1 39181 39216 39217 XOR\n1 1 39217 39186 INV\n2 1 97192 121488 39283 XOR\n2 1 39283 39284 39282 AND\n2 1 39282 121488 121489 XOR\n2 1 95145 121489 39287 XOR\n2 1 101288 121612 39463 XOR\n2 1 99240 121612 39464 XOR\n2 1 39463 39464 39462 AND\n2 1 39462 121612 121613 XOR\n2 1 121644 121613 97193 XOR\n2 1 97193 95145 121520 XOR\n2 1 121520 121489 93110 XOR\n1 1 93110 39228 INV\n2 1 39228 39217 91108 XOR\n2 1 93110 39217 39185 XOR\n2 1 39185 39186 39184 AND\n2 1 39184 39217 39188 XOR\n2 1 97193 121489 39286 XOR\n2 1 39286 39287 39285 AND\n2 1 39285 121489 121490 XOR\n2 1 95146 121490 39290 XOR\n2 1 101289 121613 39466 XOR\n2 1 99241 121613 39467 XOR\n2 1 39466 39467 39465 AND\n2 1 39465 121613 121614 XOR\n2 1 121645 121614 97194 XOR\n2 1 97194 95146 121521 XOR\n2 1 121521 121490 93111 XOR\n2 1 93111 39188 91109 XOR\n2 1 91109 39188 39187 AND\n2 1 39187 39188 39190 XOR\n2 1 97194 121490 39289 XOR\n2 1 39289 39290 39288 AND\n2 1 39288 121490 121491 XOR\n2 1 95147 121491 39293 XOR\n2 1 101290 121614 39469 XOR\n2 1 99242 121614 39470 XOR\n2 1 39469 39470 39468 AND\n2 1 39468 121614 121615 XOR\n2 1 121646 121615 97195 XOR\n2 1 97195 95147 121522 XOR\n2 1 121522 121491 93112 XOR\n2 1 93112 39190 91110 XOR\n2 1 91110 39190 39189 AND\n2 1 39189 39190 39192 XOR\n2 1 97195 121491 39292 XOR\n2 1 39292 39293 39291 AND\n",
"2 1 39291 121491 121492 XOR\n2 1 95148 121492 39296 XOR\n2 1 101291 121615 39472 XOR\n2 1 99243 121615 39473 XOR\n2 1 39472 39473 39471 AND\n2 1 39471 121615 121616 XOR\n2 1 121647 121616 97196 XOR\n2 1 97196 95148 121523 XOR\n2 1 121523 121492 93113 XOR\n2 1 93113 39192 91111 XOR\n2 1 91111 39192 39191 AND\n2 1 39191 39192 39194 XOR\n2 1 97196 121492 39295 XOR\n2 1 39295 39296 39294 AND\n2 1 39294 121492 121493 XOR\n2 1 95149 121493 39299 XOR\n2 1 101292 121616 39475 XOR\n2 1 99244 121616 39476 XOR\n2 1 39475 39476 39474 AND\n2 1 39474 121616 121617 XOR\n2 1 121648 121617 97197 XOR\n2 1 97197 95149 121524 XOR\n2 1 121524 121493 93114 XOR\n2 1 93114 39194 91112 XOR\n2 1 91112 39194 39193 AND\n2 1 39193 39194 39196 XOR\n2 1 97197 121493 39298 XOR\n2 1 39298 39299 39297 AND\n2 1 39297 121493 121494 XOR\n2 1 95150 121494 39302 XOR\n2 1 101293 121617 39478 XOR\n2 1 99245 121617 39479 XOR\n2 1 39478 39479 39477 AND\n2 1 39477 121617 121618 XOR\n2 1 121649 121618 97198 XOR\n2 1 97198 95150 121525 XOR\n2 1 121525 121494 93115 XOR\n2 1 93115 39196 91113 XOR\n2 1 91113 39196 39195 AND\n2 1 39195 39196 39198 XOR\n2 1 97198 121494 39301 XOR\n2 1 39301 39302 39300 AND\n2 1 39300 121494 121495 XOR\n2 1 95151 121495 39305 XOR\n2 1 101294 121618 39481 XOR\n2 1 99246 121618 39482 XOR\n2 1 39481 39482 39480 AND\n2 1 39480 121618 121619 XOR\n2 1 121650 121619 97199 XOR\n2 1 97199 95151 121526 XOR\n2 1 121526 121495 93116 XOR\n2 1 93116 39198 91114 XOR\n2 1 91114 39198 39197 AND\n2 1 39197 39198 39218 XOR\n1 1 39218 39201 INV\n2 1 97199 121495 39304 XOR\n2 1 39304 39305 39303 AND\n2 1 39303 121495 121496 XOR\n2 1 95152 121496 39308 XOR\n2 1 101295 121619 39484 XOR\n2 1 99247 121619 39485 XOR\n2 1 39484 39485 39483 AND\n2 1 39483 121619 121620 XOR\n2 1 121651 121620 97200 XOR\n2 1 97200 95152 121527 XOR\n2 1 121527 121496 93117 XOR\n1 1 93117 39229 INV\n2 1 39229 39218 91115 XOR\n2 1 93117 39218 39200 XOR\n2 1 39200 39201 39199 AND\n2 1 39199 39218 39203 XOR\n2 1 97200 121496 39307 XOR\n2 1 39307 39308 39306 AND\n2 1 39306 121496 121497 XOR\n2 1 95153 121497 39311 XOR\n2 1 101296 121620 39487 XOR\n2 1 99248 121620 39488 XOR\n2 1 39487 39488 39486 AND\n2 1 39486 121620 121621 XOR\n2 1 121652 121621 97201 XOR\n2 1 97201 95153 121528 XOR\n2 1 121528 121497 93118 XOR\n2 1 93118 39203 91116 XOR\n2 1 91116 39203 39202 AND\n2 1 39202 39203 39205 XOR\n2 1 97201 121497 39310 XOR\n2 1 39310 39311 39309 AND\n2 1 39309 121497 121498 XOR\n2 1 95154 121498 39314 XOR\n2 1 101297 121621 39490 XOR\n2 1 99249 121621 39491 XOR\n2 1 39490 39491 39489 AND\n2 1 39489 121621 121622 XOR\n2 1 121653 121622 97202 XOR\n2 1 97202 95154 121529 XOR\n2 1 121529 121498 93119 XOR\n2 1 93119 39205 91117 XOR\n2 1 91117 39205 39204 AND\n2 1 39204 39205 39219 XOR\n1 1 39219 39208 INV\n2 1 97202 121498 39313 XOR\n2 1 39313 39314 39312 AND\n2 1 39312 121498 121499 XOR\n2 1 95155 121499 39317 XOR\n2 1 101298 121622 39493 XOR\n2 1 99250 121622 39494 XOR\n2 1 39493 39494 39492 AND\n2 1 39492 121622 121623 XOR\n2 1 121654 121623 97203 XOR\n2 1 97203 95155 121530 XOR\n2 1 121530 121499 93120 XOR\n1 1 93120 39230 INV\n2 1 39230 39219 91118 XOR\n2 1 93120 39219 39207 XOR\n2 1 39207 39208 39206 AND\n2 1 39206 39219 39210 XOR\n2 1 97203 121499 39316 XOR\n2 1 39316 39317 39315 AND\n2 1 39315 121499 121500 XOR\n2 1 95156 121500 39320 XOR\n2 1 101299 121623 39496 XOR\n2 1 99251 121623 39497 XOR\n2 1 39496 39497 39495 AND\n2 1 39495 121623 121624 XOR\n2 1 121655 121624 97204 XOR\n2 1 97204 95156 121531 XOR\n2 1 121531 121500 93121 XOR\n2 1 93121 39210 91119 XOR\n",
"2 1 91119 39210 39209 AND\n2 1 39209 39210 39220 XOR\n2 1 97204 121500 39319 XOR\n2 1 39319 39320 39318 AND\n2 1 39318 121500 121501 XOR\n2 1 101300 121624 39499 XOR\n2 1 99252 121624 39500 XOR\n2 1 39499 39500 39498 AND\n2 1 39498 121624 121625 XOR\n2 1 121656 121625 97205 XOR\n2 1 97205 95157 121532 XOR\n2 1 121532 121501 93122 XOR\n2 1 93122 39220 91120 XOR\n2 1 3143 91096 107899 XOR\n2 1 91112 84968 107977 XOR\n2 1 3144 91097 107900 XOR\n2 1 3147 91100 107903 XOR\n2 1 3146 91099 107902 XOR\n2 1 3145 91098 107901 XOR\n2 1 3148 91101 107904 XOR\n2 1 91113 84969 107978 XOR\n2 1 91116 84972 107981 XOR\n2 1 91115 84971 107980 XOR\n2 1 91114 84970 107979 XOR\n2 1 91117 84973 107982 XOR\n2 1 91105 84961 107970 XOR\n2 1 91110 84966 107975 XOR\n2 1 91108 84964 107973 XOR\n2 1 91111 84967 107976 XOR\n2 1 3136 91089 107862 AND\n2 1 3137 91090 107893 XOR\n2 1 91106 84962 107971 XOR\n2 1 3137 107862 15697 XOR\n2 1 3142 91095 107898 XOR\n2 1 91090 107862 15698 XOR\n2 1 15697 15698 15696 AND\n2 1 91102 84958 107967 XOR\n2 1 3140 91093 107896 XOR\n2 1 3164 91117 107920 XOR\n2 1 3167 91120 107923 XOR\n2 1 107893 107862 3521 XOR\n2 1 76882 3521 120559 XOR\n2 1 3165 91118 107921 XOR\n2 1 3136 91089 3520 XOR\n2 1 76881 3520 120528 AND\n2 1 76881 3520 94998 XOR\n2 1 120559 120528 94999 XOR\n2 1 76882 120528 37506 XOR\n2 1 3521 120528 37507 XOR\n2 1 37506 37507 37505 AND\n2 1 37505 120528 120529 XOR\n2 1 76883 120529 37509 XOR\n2 1 3139 91092 107895 XOR\n2 1 91100 84956 107965 XOR\n2 1 3166 91119 107922 XOR\n2 1 15696 107862 107863 XOR\n2 1 3138 107863 15700 XOR\n2 1 91091 107863 15701 XOR\n2 1 91103 84959 107968 XOR\n2 1 91104 84960 107969 XOR\n2 1 91101 84957 107966 XOR\n2 1 3138 91091 107894 XOR\n2 1 107894 107863 3522 XOR\n2 1 76883 3522 120560 XOR\n2 1 120560 120529 95000 XOR\n2 1 3522 120529 37510 XOR\n2 1 37509 37510 37508 AND\n2 1 37508 120529 120530 XOR\n2 1 76884 120530 37512 XOR\n2 1 3141 91094 107897 XOR\n2 1 15700 15701 15699 AND\n2 1 15699 107863 107864 XOR\n2 1 107895 107864 3523 XOR\n2 1 76884 3523 120561 XOR\n2 1 120561 120530 95001 XOR\n2 1 3523 120530 37513 XOR\n2 1 37512 37513 37511 AND\n2 1 37511 120530 120531 XOR\n2 1 76885 120531 37515 XOR\n2 1 3139 107864 15703 XOR\n2 1 3151 91104 107907 XOR\n2 1 3150 91103 107906 XOR\n2 1 3149 91102 107905 XOR\n2 1 3163 91116 107919 XOR\n2 1 91092 107864 15704 XOR\n2 1 15703 15704 15702 AND\n2 1 15702 107864 107865 XOR\n2 1 107896 107865 3524 XOR\n2 1 76885 3524 120562 XOR\n2 1 120562 120531 95002 XOR\n2 1 3524 120531 37516 XOR\n2 1 37515 37516 37514 AND\n2 1 37514 120531 120532 XOR\n2 1 76886 120532 37518 XOR\n2 1 91099 84955 107964 XOR\n2 1 91120 84976 107985 XOR\n2 1 91119 84975 107984 XOR\n2 1 91118 84974 107983 XOR\n2 1 3161 91114 107917 XOR\n2 1 91097 84953 107962 XOR\n2 1 3154 91107 107910 XOR\n2 1 3153 91106 107909 XOR\n2 1 3152 91105 107908 XOR\n2 1 3162 91115 107918 XOR\n2 1 91093 107865 15707 XOR\n2 1 3140 107865 15706 XOR\n2 1 15706 15707 15705 AND\n2 1 15705 107865 107866 XOR\n2 1 107897 107866 3525 XOR\n2 1 76886 3525 120563 XOR\n2 1 120563 120532 95003 XOR\n2 1 3525 120532 37519 XOR\n2 1 37518 37519 37517 AND\n2 1 37517 120532 120533 XOR\n2 1 76887 120533 37521 XOR\n2 1 3155 91108 107911 XOR\n2 1 91090 84946 107955 XOR\n2 1 91089 84945 3008 XOR\n2 1 91089 84945 107924 AND\n2 1 107955 107924 3009 XOR\n2 1 91098 84954 107963 XOR\n2 1 91090 107924 15787 XOR\n2 1 91091 84947 107956 XOR\n2 1 84946 107924 15788 XOR\n2 1 15787 15788 15786 AND\n2 1 15786 107924 107925 XOR\n2 1 3159 91112 107915 XOR\n2 1 3158 91111 107914 XOR\n",
"2 1 3156 91109 107912 XOR\n2 1 3157 91110 107913 XOR\n2 1 3160 91113 107916 XOR\n2 1 91094 107866 15710 XOR\n2 1 3141 107866 15709 XOR\n2 1 15709 15710 15708 AND\n2 1 15708 107866 107867 XOR\n2 1 91095 107867 15713 XOR\n2 1 3142 107867 15712 XOR\n2 1 15712 15713 15711 AND\n2 1 107898 107867 3526 XOR\n2 1 76887 3526 120564 XOR\n2 1 120564 120533 95004 XOR\n2 1 3526 120533 37522 XOR\n2 1 37521 37522 37520 AND\n2 1 37520 120533 120534 XOR\n2 1 76888 120534 37524 XOR\n2 1 15711 107867 107868 XOR\n2 1 3143 107868 15715 XOR\n2 1 91096 107868 15716 XOR\n2 1 15715 15716 15714 AND\n2 1 15714 107868 107869 XOR\n2 1 3144 107869 15718 XOR\n2 1 91097 107869 15719 XOR\n2 1 15718 15719 15717 AND\n2 1 15717 107869 107870 XOR\n2 1 3145 107870 15721 XOR\n2 1 91098 107870 15722 XOR\n2 1 15721 15722 15720 AND\n2 1 107901 107870 3529 XOR\n2 1 76890 3529 120567 XOR\n2 1 15720 107870 107871 XOR\n2 1 107902 107871 3530 XOR\n2 1 76891 3530 120568 XOR\n2 1 3146 107871 15724 XOR\n2 1 107900 107869 3528 XOR\n2 1 76889 3528 120566 XOR\n2 1 107899 107868 3527 XOR\n2 1 76888 3527 120565 XOR\n2 1 120565 120534 95005 XOR\n2 1 3527 120534 37525 XOR\n2 1 37524 37525 37523 AND\n2 1 37523 120534 120535 XOR\n2 1 120566 120535 95006 XOR\n2 1 76889 120535 37527 XOR\n2 1 3528 120535 37528 XOR\n2 1 37527 37528 37526 AND\n2 1 37526 120535 120536 XOR\n2 1 120567 120536 95007 XOR\n2 1 76890 120536 37530 XOR\n2 1 3529 120536 37531 XOR\n2 1 37530 37531 37529 AND\n2 1 37529 120536 120537 XOR\n2 1 120568 120537 95008 XOR\n2 1 76891 120537 37533 XOR\n2 1 3530 120537 37534 XOR\n2 1 37533 37534 37532 AND\n2 1 37532 120537 120538 XOR\n2 1 76892 120538 37536 XOR\n2 1 91099 107871 15725 XOR\n2 1 15724 15725 15723 AND\n2 1 15723 107871 107872 XOR\n2 1 107903 107872 3531 XOR\n2 1 76892 3531 120569 XOR\n2 1 120569 120538 95009 XOR\n2 1 3531 120538 37537 XOR\n2 1 37536 37537 37535 AND\n2 1 37535 120538 120539 XOR\n2 1 76893 120539 37539 XOR\n2 1 91100 107872 15728 XOR\n2 1 3147 107872 15727 XOR\n2 1 15727 15728 15726 AND\n2 1 15726 107872 107873 XOR\n2 1 107904 107873 3532 XOR\n2 1 76893 3532 120570 XOR\n2 1 120570 120539 95010 XOR\n2 1 3532 120539 37540 XOR\n2 1 37539 37540 37538 AND\n2 1 37538 120539 120540 XOR\n2 1 76894 120540 37542 XOR\n2 1 91101 107873 15731 XOR\n2 1 3148 107873 15730 XOR\n2 1 15730 15731 15729 AND\n2 1 15729 107873 107874 XOR\n2 1 91102 107874 15734 XOR\n2 1 3149 107874 15733 XOR\n2 1 15733 15734 15732 AND\n2 1 15732 107874 107875 XOR\n2 1 3150 107875 15736 XOR\n2 1 91103 107875 15737 XOR\n2 1 15736 15737 15735 AND\n2 1 15735 107875 107876 XOR\n2 1 107907 107876 3535 XOR\n2 1 76896 3535 120573 XOR\n2 1 107906 107875 3534 XOR\n2 1 76895 3534 120572 XOR\n2 1 3151 107876 15739 XOR\n2 1 91104 107876 15740 XOR\n2 1 15739 15740 15738 AND\n2 1 15738 107876 107877 XOR\n2 1 91105 107877 15743 XOR\n2 1 3152 107877 15742 XOR\n2 1 15742 15743 15741 AND\n2 1 15741 107877 107878 XOR\n2 1 107909 107878 3537 XOR\n2 1 76898 3537 120575 XOR\n2 1 91106 107878 15746 XOR\n2 1 3153 107878 15745 XOR\n2 1 15745 15746 15744 AND\n2 1 15744 107878 107879 XOR\n2 1 107910 107879 3538 XOR\n2 1 76899 3538 120576 XOR\n2 1 3154 107879 15748 XOR\n2 1 107905 107874 3533 XOR\n2 1 76894 3533 120571 XOR\n2 1 120571 120540 95011 XOR\n2 1 3533 120540 37543 XOR\n2 1 37542 37543 37541 AND\n2 1 37541 120540 120541 XOR\n2 1 120572 120541 95012 XOR\n2 1 76895 120541 37545 XOR\n2 1 3534 120541 37546 XOR\n2 1 37545 37546 37544 AND\n2 1 37544 120541 120542 XOR\n2 1 120573 120542 95013 XOR\n2 1 76896 120542 37548 XOR\n2 1 3535 120542 37549 XOR\n2 1 37548 37549 37547 AND\n",
"2 1 37547 120542 120543 XOR\n2 1 76897 120543 37551 XOR\n2 1 91107 107879 15749 XOR\n2 1 15748 15749 15747 AND\n2 1 15747 107879 107880 XOR\n2 1 91108 107880 15752 XOR\n2 1 107911 107880 3539 XOR\n2 1 76900 3539 120577 XOR\n2 1 3155 107880 15751 XOR\n2 1 15751 15752 15750 AND\n2 1 15750 107880 107881 XOR\n2 1 3156 107881 15754 XOR\n2 1 91109 107881 15755 XOR\n2 1 15754 15755 15753 AND\n2 1 15753 107881 107882 XOR\n2 1 107913 107882 3541 XOR\n2 1 76902 3541 120579 XOR\n2 1 3157 107882 15757 XOR\n2 1 91110 107882 15758 XOR\n2 1 15757 15758 15756 AND\n2 1 15756 107882 107883 XOR\n2 1 91111 107883 15761 XOR\n2 1 3158 107883 15760 XOR\n2 1 15760 15761 15759 AND\n2 1 15759 107883 107884 XOR\n2 1 107915 107884 3543 XOR\n2 1 76904 3543 120581 XOR\n2 1 3159 107884 15763 XOR\n2 1 91112 107884 15764 XOR\n2 1 15763 15764 15762 AND\n2 1 15762 107884 107885 XOR\n2 1 107916 107885 3544 XOR\n2 1 76905 3544 120582 XOR\n2 1 107912 107881 3540 XOR\n2 1 76901 3540 120578 XOR\n2 1 91113 107885 15767 XOR\n2 1 3160 107885 15766 XOR\n2 1 15766 15767 15765 AND\n2 1 15765 107885 107886 XOR\n2 1 107917 107886 3545 XOR\n2 1 76906 3545 120583 XOR\n2 1 91114 107886 15770 XOR\n2 1 3161 107886 15769 XOR\n2 1 15769 15770 15768 AND\n2 1 15768 107886 107887 XOR\n2 1 91115 107887 15773 XOR\n2 1 3162 107887 15772 XOR\n2 1 15772 15773 15771 AND\n2 1 107918 107887 3546 XOR\n2 1 76907 3546 120584 XOR\n2 1 15771 107887 107888 XOR\n2 1 3163 107888 15775 XOR\n2 1 91116 107888 15776 XOR\n2 1 107919 107888 3547 XOR\n2 1 76908 3547 120585 XOR\n2 1 15775 15776 15774 AND\n2 1 15774 107888 107889 XOR\n2 1 91117 107889 15779 XOR\n2 1 107920 107889 3548 XOR\n2 1 76909 3548 120586 XOR\n2 1 91095 84951 107960 XOR\n2 1 91094 84950 107959 XOR\n2 1 91092 84948 107957 XOR\n2 1 91093 84949 107958 XOR\n2 1 91096 84952 107961 XOR\n2 1 91091 107925 15790 XOR\n2 1 107956 107925 3010 XOR\n2 1 84947 107925 15791 XOR\n2 1 15790 15791 15789 AND\n2 1 15789 107925 107926 XOR\n2 1 84948 107926 15794 XOR\n2 1 91092 107926 15793 XOR\n2 1 15793 15794 15792 AND\n2 1 107957 107926 3011 XOR\n2 1 15792 107926 107927 XOR\n2 1 84949 107927 15797 XOR\n2 1 91093 107927 15796 XOR\n2 1 15796 15797 15795 AND\n2 1 15795 107927 107928 XOR\n2 1 91094 107928 15799 XOR\n2 1 107958 107927 3012 XOR\n2 1 107959 107928 3013 XOR\n2 1 3013 3077 72948 XOR\n2 1 3012 3076 72947 XOR\n2 1 3011 3075 72946 XOR\n2 1 3010 3074 72945 XOR\n2 1 3009 3073 72944 XOR\n2 1 3008 3072 72943 XOR\n2 1 72948 72916 72884 AND\n2 1 72947 72915 72883 AND\n2 1 72946 72914 72882 AND\n2 1 72945 72913 72881 AND\n2 1 72944 72912 72880 AND\n2 1 72943 72911 72879 AND\n2 1 72884 3077 86966 XOR\n2 1 72883 3076 86965 XOR\n2 1 72882 3075 86964 XOR\n2 1 72881 3074 86963 XOR\n2 1 72880 3073 86962 XOR\n2 1 72879 3072 86961 XOR\n2 1 3013 3045 72820 XOR\n2 1 3012 3044 72819 XOR\n2 1 3011 3043 72818 XOR\n2 1 3010 3042 72817 XOR\n2 1 3009 3041 72816 XOR\n2 1 3008 3040 72815 XOR\n2 1 107914 107883 3542 XOR\n2 1 76903 3542 120580 XOR\n2 1 107908 107877 3536 XOR\n2 1 76897 3536 120574 XOR\n2 1 120574 120543 95014 XOR\n2 1 3536 120543 37552 XOR\n2 1 37551 37552 37550 AND\n2 1 37550 120543 120544 XOR\n2 1 120575 120544 95015 XOR\n2 1 76898 120544 37554 XOR\n2 1 3537 120544 37555 XOR\n2 1 37554 37555 37553 AND\n2 1 37553 120544 120545 XOR\n2 1 120576 120545 95016 XOR\n2 1 76899 120545 37557 XOR\n2 1 3538 120545 37558 XOR\n2 1 37557 37558 37556 AND\n2 1 37556 120545 120546 XOR\n2 1 120577 120546 95017 XOR\n2 1 76900 120546 37560 XOR\n2 1 3539 120546 37561 XOR\n2 1 37560 37561 37559 AND\n",
"2 1 37559 120546 120547 XOR\n2 1 120578 120547 95018 XOR\n2 1 76901 120547 37563 XOR\n2 1 3540 120547 37564 XOR\n2 1 37563 37564 37562 AND\n2 1 37562 120547 120548 XOR\n2 1 120579 120548 95019 XOR\n2 1 76902 120548 37566 XOR\n2 1 3541 120548 37567 XOR\n2 1 37566 37567 37565 AND\n2 1 37565 120548 120549 XOR\n2 1 120580 120549 95020 XOR\n2 1 76903 120549 37569 XOR\n2 1 3542 120549 37570 XOR\n2 1 37569 37570 37568 AND\n2 1 37568 120549 120550 XOR\n2 1 120581 120550 95021 XOR\n2 1 76904 120550 37572 XOR\n2 1 3543 120550 37573 XOR\n2 1 37572 37573 37571 AND\n2 1 37571 120550 120551 XOR\n2 1 120582 120551 95022 XOR\n2 1 76905 120551 37575 XOR\n2 1 3544 120551 37576 XOR\n2 1 37575 37576 37574 AND\n2 1 37574 120551 120552 XOR\n2 1 120583 120552 95023 XOR\n2 1 76906 120552 37578 XOR\n2 1 3545 120552 37579 XOR\n2 1 37578 37579 37577 AND\n2 1 37577 120552 120553 XOR\n2 1 120584 120553 95024 XOR\n2 1 76907 120553 37581 XOR\n2 1 3546 120553 37582 XOR\n2 1 37581 37582 37580 AND\n2 1 37580 120553 120554 XOR\n2 1 120585 120554 95025 XOR\n2 1 76908 120554 37584 XOR\n2 1 3547 120554 37585 XOR\n2 1 37584 37585 37583 AND\n2 1 37583 120554 120555 XOR\n2 1 120586 120555 95026 XOR\n2 1 76909 120555 37587 XOR\n2 1 3548 120555 37588 XOR\n2 1 37587 37588 37586 AND\n2 1 37586 120555 120556 XOR\n2 1 76910 120556 37590 XOR\n2 1 3164 107889 15778 XOR\n2 1 15778 15779 15777 AND\n2 1 15777 107889 107890 XOR\n2 1 3165 107890 15781 XOR\n2 1 91118 107890 15782 XOR\n2 1 15781 15782 15780 AND\n2 1 107921 107890 3549 XOR\n2 1 76910 3549 120587 XOR\n2 1 120587 120556 95027 XOR\n2 1 3549 120556 37591 XOR\n2 1 37590 37591 37589 AND\n2 1 37589 120556 120557 XOR\n2 1 76911 120557 37593 XOR\n2 1 91107 84963 107972 XOR\n2 1 91109 84965 107974 XOR\n2 1 15780 107890 107891 XOR\n2 1 107922 107891 3550 XOR\n2 1 76911 3550 120588 XOR\n2 1 120588 120557 95028 XOR\n2 1 3550 120557 37594 XOR\n2 1 37593 37594 37592 AND\n2 1 37592 120557 120558 XOR\n2 1 91119 107891 15785 XOR\n2 1 3166 107891 15784 XOR\n2 1 15784 15785 15783 AND\n2 1 15783 107891 107892 XOR\n2 1 107923 107892 3551 XOR\n2 1 76912 3551 120589 XOR\n2 1 120589 120558 95029 XOR\n2 1 84950 107928 15800 XOR\n2 1 15799 15800 15798 AND\n2 1 15798 107928 107929 XOR\n2 1 84951 107929 15803 XOR\n2 1 91095 107929 15802 XOR\n2 1 15802 15803 15801 AND\n2 1 15801 107929 107930 XOR\n2 1 107961 107930 3015 XOR\n2 1 84952 107930 15806 XOR\n2 1 91096 107930 15805 XOR\n2 1 15805 15806 15804 AND\n2 1 15804 107930 107931 XOR\n2 1 107962 107931 3016 XOR\n2 1 91097 107931 15808 XOR\n2 1 84953 107931 15809 XOR\n2 1 15808 15809 15807 AND\n2 1 15807 107931 107932 XOR\n2 1 91098 107932 15811 XOR\n2 1 107963 107932 3017 XOR\n2 1 84954 107932 15812 XOR\n2 1 15811 15812 15810 AND\n2 1 15810 107932 107933 XOR\n2 1 84955 107933 15815 XOR\n2 1 91099 107933 15814 XOR\n2 1 15814 15815 15813 AND\n2 1 107964 107933 3018 XOR\n2 1 15813 107933 107934 XOR\n2 1 107965 107934 3019 XOR\n2 1 91100 107934 15817 XOR\n2 1 84956 107934 15818 XOR\n2 1 15817 15818 15816 AND\n2 1 15816 107934 107935 XOR\n2 1 84957 107935 15821 XOR\n2 1 107966 107935 3020 XOR\n2 1 3020 3084 72955 XOR\n2 1 3019 3083 72954 XOR\n2 1 3018 3082 72953 XOR\n2 1 3017 3081 72952 XOR\n2 1 3016 3080 72951 XOR\n2 1 3015 3079 72950 XOR\n2 1 72955 72923 72891 AND\n2 1 72954 72922 72890 AND\n2 1 72953 72921 72889 AND\n2 1 72952 72920 72888 AND\n2 1 72951 72919 72887 AND\n2 1 72950 72918 72886 AND\n2 1 72891 3084 86973 XOR\n2 1 72890 3083 86972 XOR\n2 1 72889 3082 86971 XOR\n2 1 72888 3081 86970 XOR\n2 1 72887 3080 86969 XOR\n2 1 72886 3079 86968 XOR\n",
"2 1 3020 3052 72827 XOR\n2 1 3019 3051 72826 XOR\n2 1 3018 3050 72825 XOR\n2 1 3017 3049 72824 XOR\n2 1 3016 3048 72823 XOR\n2 1 3015 3047 72822 XOR\n2 1 91101 107935 15820 XOR\n2 1 15820 15821 15819 AND\n2 1 15819 107935 107936 XOR\n2 1 84958 107936 15824 XOR\n2 1 91102 107936 15823 XOR\n2 1 15823 15824 15822 AND\n2 1 15822 107936 107937 XOR\n2 1 107968 107937 3022 XOR\n2 1 84959 107937 15827 XOR\n2 1 91103 107937 15826 XOR\n2 1 15826 15827 15825 AND\n2 1 15825 107937 107938 XOR\n2 1 107969 107938 3023 XOR\n2 1 91104 107938 15829 XOR\n2 1 84960 107938 15830 XOR\n2 1 15829 15830 15828 AND\n2 1 15828 107938 107939 XOR\n2 1 84961 107939 15833 XOR\n2 1 107970 107939 3024 XOR\n2 1 91105 107939 15832 XOR\n2 1 15832 15833 15831 AND\n2 1 15831 107939 107940 XOR\n2 1 91106 107940 15835 XOR\n2 1 84962 107940 15836 XOR\n2 1 15835 15836 15834 AND\n2 1 15834 107940 107941 XOR\n2 1 84963 107941 15839 XOR\n2 1 107972 107941 3026 XOR\n2 1 91107 107941 15838 XOR\n2 1 15838 15839 15837 AND\n2 1 15837 107941 107942 XOR\n2 1 84964 107942 15842 XOR\n2 1 107971 107940 3025 XOR\n2 1 3026 3090 72961 XOR\n2 1 3025 3089 72960 XOR\n2 1 3024 3088 72959 XOR\n2 1 3023 3087 72958 XOR\n2 1 3022 3086 72957 XOR\n2 1 72961 72929 72897 AND\n2 1 72960 72928 72896 AND\n2 1 72959 72927 72895 AND\n2 1 72958 72926 72894 AND\n2 1 72957 72925 72893 AND\n2 1 72897 3090 86979 XOR\n2 1 72896 3089 86978 XOR\n2 1 72895 3088 86977 XOR\n2 1 72894 3087 86976 XOR\n2 1 72893 3086 86975 XOR\n2 1 3026 3058 72833 XOR\n2 1 3025 3057 72832 XOR\n2 1 3024 3056 72831 XOR\n2 1 3023 3055 72830 XOR\n2 1 3022 3054 72829 XOR\n2 1 107960 107929 3014 XOR\n2 1 3014 3078 72949 XOR\n2 1 72949 72917 72885 AND\n2 1 72885 3078 86967 XOR\n2 1 3014 3046 72821 XOR\n2 1 3009 3020 68142 XOR\n2 1 3008 3019 68141 XOR\n2 1 3015 3026 68116 XOR\n2 1 3014 3025 68115 XOR\n2 1 3013 3024 68114 XOR\n2 1 3012 3023 68113 XOR\n2 1 3011 3022 68112 XOR\n2 1 107973 107942 3027 XOR\n2 1 3027 3091 72962 XOR\n2 1 72962 72930 72898 AND\n2 1 72898 3091 86980 XOR\n2 1 3027 3059 72834 XOR\n2 1 3016 3027 68117 XOR\n2 1 107967 107936 3021 XOR\n2 1 3021 3085 72956 XOR\n2 1 72956 72924 72892 AND\n2 1 72892 3085 86974 XOR\n2 1 3021 3053 72828 XOR\n2 1 3010 3021 68111 XOR\n2 1 91108 107942 15841 XOR\n2 1 15841 15842 15840 AND\n2 1 15840 107942 107943 XOR\n2 1 107974 107943 3028 XOR\n2 1 91109 107943 15844 XOR\n2 1 84965 107943 15845 XOR\n2 1 15844 15845 15843 AND\n2 1 15843 107943 107944 XOR\n2 1 107975 107944 3029 XOR\n2 1 84966 107944 15848 XOR\n2 1 91110 107944 15847 XOR\n2 1 15847 15848 15846 AND\n2 1 15846 107944 107945 XOR\n2 1 107976 107945 3030 XOR\n2 1 84967 107945 15851 XOR\n2 1 91111 107945 15850 XOR\n2 1 15850 15851 15849 AND\n2 1 15849 107945 107946 XOR\n2 1 84968 107946 15854 XOR\n2 1 91112 107946 15853 XOR\n2 1 15853 15854 15852 AND\n2 1 107977 107946 3031 XOR\n2 1 15852 107946 107947 XOR\n2 1 107978 107947 3032 XOR\n2 1 84969 107947 15857 XOR\n2 1 91113 107947 15856 XOR\n2 1 15856 15857 15855 AND\n2 1 15855 107947 107948 XOR\n2 1 107979 107948 3033 XOR\n2 1 3033 3097 72968 XOR\n2 1 3032 3096 72967 XOR\n2 1 3031 3095 72966 XOR\n2 1 3030 3094 72965 XOR\n2 1 3029 3093 72964 XOR\n2 1 3028 3092 72963 XOR\n2 1 72968 72936 72904 AND\n2 1 72967 72935 72903 AND\n2 1 72966 72934 72902 AND\n2 1 72965 72933 72901 AND\n2 1 72964 72932 72900 AND\n2 1 72963 72931 72899 AND\n2 1 72904 3097 86986 XOR\n2 1 72903 3096 86985 XOR\n2 1 72902 3095 86984 XOR\n2 1 72901 3094 86983 XOR\n",
"2 1 72900 3093 86982 XOR\n2 1 72899 3092 86981 XOR\n2 1 3033 3065 72840 XOR\n2 1 3032 3064 72839 XOR\n2 1 3031 3063 72838 XOR\n2 1 3030 3062 72837 XOR\n2 1 3029 3061 72836 XOR\n2 1 3028 3060 72835 XOR\n2 1 3033 3012 68134 XOR\n2 1 3032 3011 68133 XOR\n2 1 3031 3010 68132 XOR\n2 1 3030 3009 68131 XOR\n2 1 3029 3008 68130 XOR\n2 1 3022 3033 68123 XOR\n2 1 3021 3032 68122 XOR\n2 1 3020 3031 68121 XOR\n2 1 3019 3030 68120 XOR\n2 1 3018 3029 68119 XOR\n2 1 3017 3028 68118 XOR\n2 1 68142 3029 89040 XOR\n2 1 68141 3028 89039 XOR\n2 1 68134 3021 89032 XOR\n2 1 89032 86984 121214 XOR\n2 1 68133 3020 89031 XOR\n2 1 89031 86983 121213 XOR\n2 1 68132 3019 89030 XOR\n2 1 89030 86982 121212 XOR\n2 1 68131 3018 89029 XOR\n2 1 89029 86981 121211 XOR\n2 1 68130 3017 89028 XOR\n2 1 89028 86980 121210 XOR\n2 1 68123 3010 89021 XOR\n2 1 89021 86973 121203 XOR\n2 1 68122 3009 89020 XOR\n2 1 89020 86972 121202 XOR\n2 1 68121 3008 89019 XOR\n2 1 89019 86971 121201 XOR\n2 1 68114 3033 89012 XOR\n2 1 89012 86964 121194 XOR\n2 1 68113 3032 89011 XOR\n2 1 89011 86963 121193 XOR\n2 1 68112 3031 89010 XOR\n2 1 89010 86962 121192 XOR\n2 1 68111 3030 89009 XOR\n2 1 89009 86961 121161 AND\n2 1 89009 86961 84913 XOR\n2 1 121192 121161 84914 XOR\n2 1 89010 121161 38587 XOR\n2 1 86962 121161 38588 XOR\n2 1 38587 38588 38586 AND\n2 1 38586 121161 121162 XOR\n2 1 121193 121162 84915 XOR\n2 1 89011 121162 38590 XOR\n2 1 86963 121162 38591 XOR\n2 1 38590 38591 38589 AND\n2 1 38589 121162 121163 XOR\n2 1 121194 121163 84916 XOR\n2 1 89012 121163 38593 XOR\n2 1 86964 121163 38594 XOR\n2 1 38593 38594 38592 AND\n2 1 38592 121163 121164 XOR\n2 1 86965 121164 38597 XOR\n2 1 84970 107948 15860 XOR\n2 1 91114 107948 15859 XOR\n2 1 15859 15860 15858 AND\n2 1 15858 107948 107949 XOR\n2 1 91115 107949 15862 XOR\n2 1 84971 107949 15863 XOR\n2 1 15862 15863 15861 AND\n2 1 107980 107949 3034 XOR\n2 1 3034 3098 72969 XOR\n2 1 72969 72937 72905 AND\n2 1 72905 3098 86987 XOR\n2 1 3034 3066 72841 XOR\n2 1 3034 3013 68135 XOR\n2 1 3023 3034 68124 XOR\n2 1 68135 3022 89033 XOR\n2 1 89033 86985 121215 XOR\n2 1 68124 3011 89022 XOR\n2 1 89022 86974 121204 XOR\n2 1 68115 3034 89013 XOR\n2 1 89013 86965 121195 XOR\n2 1 121195 121164 84917 XOR\n2 1 89013 121164 38596 XOR\n2 1 38596 38597 38595 AND\n2 1 38595 121164 121165 XOR\n2 1 86966 121165 38600 XOR\n2 1 15861 107949 107950 XOR\n2 1 107981 107950 3035 XOR\n2 1 84972 107950 15866 XOR\n2 1 91116 107950 15865 XOR\n2 1 15865 15866 15864 AND\n2 1 15864 107950 107951 XOR\n2 1 107982 107951 3036 XOR\n2 1 91117 107951 15868 XOR\n2 1 84973 107951 15869 XOR\n2 1 15868 15869 15867 AND\n2 1 15867 107951 107952 XOR\n2 1 91118 107952 15871 XOR\n2 1 107983 107952 3037 XOR\n2 1 84974 107952 15872 XOR\n2 1 15871 15872 15870 AND\n2 1 15870 107952 107953 XOR\n2 1 91119 107953 15874 XOR\n2 1 84975 107953 15875 XOR\n2 1 15874 15875 15873 AND\n2 1 107984 107953 3038 XOR\n2 1 15873 107953 107954 XOR\n2 1 107985 107954 3039 XOR\n2 1 3039 3103 72974 XOR\n2 1 3038 3102 72973 XOR\n2 1 3037 3101 72972 XOR\n2 1 3036 3100 72971 XOR\n2 1 3035 3099 72970 XOR\n2 1 72974 72942 72910 AND\n2 1 72973 72941 72909 AND\n2 1 72972 72940 72908 AND\n2 1 72971 72939 72907 AND\n2 1 72970 72938 72906 AND\n2 1 72910 3103 86992 XOR\n2 1 89040 86992 121222 XOR\n2 1 72909 3102 86991 XOR\n2 1 89039 86991 121221 XOR\n2 1 72908 3101 86990 XOR\n2 1 72907 3100 86989 XOR\n2 1 72906 3099 86988 XOR\n2 1 3039 3071 72846 XOR\n2 1 3038 3070 72845 XOR\n",
"2 1 3037 3069 72844 XOR\n2 1 3036 3068 72843 XOR\n2 1 3035 3067 72842 XOR\n2 1 3039 3018 68140 XOR\n2 1 3038 3017 68139 XOR\n2 1 3037 3016 68138 XOR\n2 1 3036 3015 68137 XOR\n2 1 3035 3014 68136 XOR\n2 1 3028 3039 68129 XOR\n2 1 3027 3038 68128 XOR\n2 1 3026 3037 68127 XOR\n2 1 3025 3036 68126 XOR\n2 1 3024 3035 68125 XOR\n2 1 68140 3027 89038 XOR\n2 1 89038 86990 121220 XOR\n2 1 68139 3026 89037 XOR\n2 1 89037 86989 121219 XOR\n2 1 68138 3025 89036 XOR\n2 1 89036 86988 121218 XOR\n2 1 68137 3024 89035 XOR\n2 1 89035 86987 121217 XOR\n2 1 68136 3023 89034 XOR\n2 1 89034 86986 121216 XOR\n2 1 68129 3016 89027 XOR\n2 1 89027 86979 121209 XOR\n2 1 68128 3015 89026 XOR\n2 1 89026 86978 121208 XOR\n2 1 68127 3014 89025 XOR\n2 1 89025 86977 121207 XOR\n2 1 68126 3013 89024 XOR\n2 1 89024 86976 121206 XOR\n2 1 68125 3012 89023 XOR\n2 1 89023 86975 121205 XOR\n2 1 68120 3039 89018 XOR\n2 1 89018 86970 121200 XOR\n2 1 68119 3038 89017 XOR\n2 1 89017 86969 121199 XOR\n2 1 68118 3037 89016 XOR\n2 1 89016 86968 121198 XOR\n2 1 68117 3036 89015 XOR\n2 1 89015 86967 121197 XOR\n2 1 68116 3035 89014 XOR\n2 1 89014 86966 121196 XOR\n2 1 121196 121165 84918 XOR\n2 1 89014 121165 38599 XOR\n2 1 38599 38600 38598 AND\n2 1 38598 121165 121166 XOR\n2 1 121197 121166 84919 XOR\n2 1 89015 121166 38602 XOR\n2 1 86967 121166 38603 XOR\n2 1 38602 38603 38601 AND\n2 1 38601 121166 121167 XOR\n2 1 121198 121167 84920 XOR\n2 1 89016 121167 38605 XOR\n2 1 86968 121167 38606 XOR\n2 1 38605 38606 38604 AND\n2 1 38604 121167 121168 XOR\n2 1 121199 121168 84921 XOR\n2 1 89017 121168 38608 XOR\n2 1 86969 121168 38609 XOR\n2 1 38608 38609 38607 AND\n2 1 38607 121168 121169 XOR\n2 1 121200 121169 84922 XOR\n2 1 89018 121169 38611 XOR\n2 1 86970 121169 38612 XOR\n2 1 38611 38612 38610 AND\n2 1 38610 121169 121170 XOR\n2 1 121201 121170 84923 XOR\n2 1 89019 121170 38614 XOR\n2 1 86971 121170 38615 XOR\n2 1 38614 38615 38613 AND\n2 1 38613 121170 121171 XOR\n2 1 121202 121171 84924 XOR\n2 1 89020 121171 38617 XOR\n2 1 86972 121171 38618 XOR\n2 1 38617 38618 38616 AND\n2 1 38616 121171 121172 XOR\n2 1 121203 121172 84925 XOR\n2 1 89021 121172 38620 XOR\n2 1 86973 121172 38621 XOR\n2 1 38620 38621 38619 AND\n2 1 38619 121172 121173 XOR\n2 1 121204 121173 84926 XOR\n2 1 89022 121173 38623 XOR\n2 1 86974 121173 38624 XOR\n2 1 38623 38624 38622 AND\n2 1 38622 121173 121174 XOR\n2 1 121205 121174 84927 XOR\n2 1 89023 121174 38626 XOR\n2 1 86975 121174 38627 XOR\n2 1 38626 38627 38625 AND\n2 1 38625 121174 121175 XOR\n2 1 121206 121175 84928 XOR\n2 1 89024 121175 38629 XOR\n2 1 86976 121175 38630 XOR\n2 1 38629 38630 38628 AND\n2 1 38628 121175 121176 XOR\n2 1 121207 121176 84929 XOR\n2 1 89025 121176 38632 XOR\n2 1 86977 121176 38633 XOR\n2 1 38632 38633 38631 AND\n2 1 38631 121176 121177 XOR\n2 1 121208 121177 84930 XOR\n2 1 89026 121177 38635 XOR\n2 1 86978 121177 38636 XOR\n2 1 38635 38636 38634 AND\n2 1 38634 121177 121178 XOR\n2 1 121209 121178 84931 XOR\n2 1 89027 121178 38638 XOR\n2 1 86979 121178 38639 XOR\n2 1 38638 38639 38637 AND\n2 1 38637 121178 121179 XOR\n2 1 121210 121179 84932 XOR\n2 1 89028 121179 38641 XOR\n2 1 86980 121179 38642 XOR\n2 1 38641 38642 38640 AND\n2 1 38640 121179 121180 XOR\n2 1 121211 121180 84933 XOR\n2 1 89029 121180 38644 XOR\n2 1 86981 121180 38645 XOR\n2 1 38644 38645 38643 AND\n2 1 38643 121180 121181 XOR\n2 1 121212 121181 84934 XOR\n2 1 89030 121181 38647 XOR\n2 1 86982 121181 38648 XOR\n2 1 38647 38648 38646 AND\n2 1 38646 121181 121182 XOR\n2 1 121213 121182 84935 XOR\n",
"2 1 89031 121182 38650 XOR\n2 1 86983 121182 38651 XOR\n2 1 38650 38651 38649 AND\n2 1 38649 121182 121183 XOR\n2 1 121214 121183 84936 XOR\n2 1 89032 121183 38653 XOR\n2 1 86984 121183 38654 XOR\n2 1 38653 38654 38652 AND\n2 1 38652 121183 121184 XOR\n2 1 121215 121184 84937 XOR\n2 1 89033 121184 38656 XOR\n2 1 86985 121184 38657 XOR\n2 1 38656 38657 38655 AND\n2 1 38655 121184 121185 XOR\n2 1 121216 121185 84938 XOR\n2 1 89034 121185 38659 XOR\n2 1 86986 121185 38660 XOR\n2 1 38659 38660 38658 AND\n2 1 38658 121185 121186 XOR\n2 1 121217 121186 84939 XOR\n2 1 89035 121186 38662 XOR\n2 1 86987 121186 38663 XOR\n2 1 38662 38663 38661 AND\n2 1 38661 121186 121187 XOR\n2 1 121218 121187 84940 XOR\n2 1 89036 121187 38665 XOR\n2 1 86988 121187 38666 XOR\n2 1 38665 38666 38664 AND\n2 1 38664 121187 121188 XOR\n2 1 121219 121188 84941 XOR\n2 1 89037 121188 38668 XOR\n2 1 86989 121188 38669 XOR\n2 1 38668 38669 38667 AND\n2 1 38667 121188 121189 XOR\n2 1 121220 121189 84942 XOR\n2 1 89038 121189 38671 XOR\n2 1 86990 121189 38672 XOR\n2 1 38671 38672 38670 AND\n2 1 38670 121189 121190 XOR\n2 1 121221 121190 84943 XOR\n2 1 89039 121190 38674 XOR\n2 1 86991 121190 38675 XOR\n2 1 38674 38675 38673 AND\n2 1 38673 121190 121191 XOR\n2 1 121222 121191 84944 XOR\n2 1 65646 3551 65614 AND\n2 1 65645 3550 65613 AND\n2 1 65644 3549 65612 AND\n2 1 65643 3548 65611 AND\n2 1 65642 3547 65610 AND\n2 1 65641 3546 65609 AND\n2 1 65640 3545 65608 AND\n2 1 65639 3544 65607 AND\n2 1 65638 3543 65606 AND\n2 1 65637 3542 65605 AND\n2 1 65636 3541 65604 AND\n2 1 65635 3540 65603 AND\n2 1 65634 3539 65602 AND\n2 1 65633 3538 65601 AND\n2 1 65632 3537 65600 AND\n2 1 65631 3536 65599 AND\n2 1 65630 3535 65598 AND\n2 1 65629 3534 65597 AND\n2 1 65628 3533 65596 AND\n2 1 65627 3532 65595 AND\n2 1 65626 3531 65594 AND\n2 1 65625 3530 65593 AND\n2 1 65624 3529 65592 AND\n2 1 65623 3528 65591 AND\n2 1 65622 3527 65590 AND\n2 1 65621 3526 65589 AND\n2 1 65620 3525 65588 AND\n2 1 65619 3524 65587 AND\n2 1 65618 3523 65586 AND\n2 1 65617 3522 65585 AND\n2 1 65616 3521 65584 AND\n2 1 65615 3520 65583 AND\n2 1 65614 3615 99221 XOR\n2 1 65613 3614 99220 XOR\n2 1 65612 3613 99219 XOR\n2 1 65611 3612 99218 XOR\n2 1 65610 3611 99217 XOR\n2 1 65609 3610 99216 XOR\n2 1 65608 3609 99215 XOR\n2 1 65607 3608 99214 XOR\n2 1 65606 3607 99213 XOR\n2 1 65605 3606 99212 XOR\n2 1 65604 3605 99211 XOR\n2 1 65603 3604 99210 XOR\n2 1 65602 3603 99209 XOR\n2 1 65601 3602 99208 XOR\n2 1 65600 3601 99207 XOR\n2 1 65599 3600 99206 XOR\n2 1 65598 3599 99205 XOR\n2 1 65597 3598 99204 XOR\n2 1 65596 3597 99203 XOR\n2 1 65595 3596 99202 XOR\n2 1 65594 3595 99201 XOR\n2 1 65593 3594 99200 XOR\n2 1 65592 3593 99199 XOR\n2 1 65591 3592 99198 XOR\n2 1 65590 3591 99197 XOR\n2 1 65589 3590 99196 XOR\n2 1 65588 3589 99195 XOR\n2 1 65587 3588 99194 XOR\n2 1 65586 3587 99193 XOR\n2 1 65585 3586 99192 XOR\n2 1 65584 3585 99191 XOR\n2 1 65583 3584 99190 XOR\n2 1 3551 3583 65582 XOR\n2 1 3550 3582 65581 XOR\n2 1 3549 3581 65580 XOR\n2 1 3548 3580 65579 XOR\n2 1 3547 3579 65578 XOR\n2 1 3546 3578 65577 XOR\n2 1 3545 3577 65576 XOR\n2 1 3544 3576 65575 XOR\n2 1 3543 3575 65574 XOR\n2 1 3542 3574 65573 XOR\n2 1 3541 3573 65572 XOR\n2 1 3540 3572 65571 XOR\n2 1 3539 3571 65570 XOR\n2 1 3538 3570 65569 XOR\n2 1 3537 3569 65568 XOR\n2 1 3536 3568 65567 XOR\n2 1 3535 3567 65566 XOR\n2 1 3534 3566 65565 XOR\n2 1 3533 3565 65564 XOR\n",
"2 1 3532 3564 65563 XOR\n2 1 3531 3563 65562 XOR\n2 1 3530 3562 65561 XOR\n2 1 3529 3561 65560 XOR\n2 1 3528 3560 65559 XOR\n2 1 3527 3559 65558 XOR\n2 1 3526 3558 65557 XOR\n2 1 3525 3557 65556 XOR\n2 1 3524 3556 65555 XOR\n2 1 3523 3555 65554 XOR\n2 1 3522 3554 65553 XOR\n2 1 3521 3553 65552 XOR\n2 1 3520 3552 65551 XOR\n2 1 3525 3530 62222 XOR\n2 1 3524 3529 62221 XOR\n2 1 3523 3528 62220 XOR\n2 1 3522 3527 62219 XOR\n2 1 3521 3526 62218 XOR\n2 1 3520 3525 62217 XOR\n2 1 3551 3524 62216 XOR\n2 1 3550 3523 62215 XOR\n2 1 3549 3522 62214 XOR\n2 1 3548 3521 62213 XOR\n2 1 3547 3520 62212 XOR\n2 1 3546 3551 62211 XOR\n2 1 3545 3550 62210 XOR\n2 1 3544 3549 62209 XOR\n2 1 3543 3548 62208 XOR\n2 1 3542 3547 62207 XOR\n2 1 3541 3546 62206 XOR\n2 1 3540 3545 62205 XOR\n2 1 3539 3544 62204 XOR\n2 1 3538 3543 62203 XOR\n2 1 3537 3542 62202 XOR\n2 1 3536 3541 62201 XOR\n2 1 3535 3540 62200 XOR\n2 1 3534 3539 62199 XOR\n2 1 3533 3538 62198 XOR\n2 1 3532 3537 62197 XOR\n2 1 3531 3536 62196 XOR\n2 1 3530 3535 62195 XOR\n2 1 3529 3534 62194 XOR\n2 1 3528 3533 62193 XOR\n2 1 3527 3532 62192 XOR\n2 1 3526 3531 62191 XOR\n2 1 62222 3544 101269 XOR\n2 1 101269 99221 121408 XOR\n2 1 62221 3543 101268 XOR\n2 1 101268 99220 121407 XOR\n2 1 62220 3542 101267 XOR\n2 1 101267 99219 121406 XOR\n2 1 62219 3541 101266 XOR\n2 1 101266 99218 121405 XOR\n2 1 62218 3540 101265 XOR\n2 1 101265 99217 121404 XOR\n2 1 62217 3539 101264 XOR\n2 1 101264 99216 121403 XOR\n2 1 62216 3538 101263 XOR\n2 1 101263 99215 121402 XOR\n2 1 62215 3537 101262 XOR\n2 1 101262 99214 121401 XOR\n2 1 62214 3536 101261 XOR\n2 1 101261 99213 121400 XOR\n2 1 62213 3535 101260 XOR\n2 1 101260 99212 121399 XOR\n2 1 62212 3534 101259 XOR\n2 1 101259 99211 121398 XOR\n2 1 62211 3533 101258 XOR\n2 1 101258 99210 121397 XOR\n2 1 62210 3532 101257 XOR\n2 1 101257 99209 121396 XOR\n2 1 62209 3531 101256 XOR\n2 1 101256 99208 121395 XOR\n2 1 62208 3530 101255 XOR\n2 1 101255 99207 121394 XOR\n2 1 62207 3529 101254 XOR\n2 1 101254 99206 121393 XOR\n2 1 62206 3528 101253 XOR\n2 1 101253 99205 121392 XOR\n2 1 62205 3527 101252 XOR\n2 1 101252 99204 121391 XOR\n2 1 62204 3526 101251 XOR\n2 1 101251 99203 121390 XOR\n2 1 62203 3525 101250 XOR\n2 1 101250 99202 121389 XOR\n2 1 62202 3524 101249 XOR\n2 1 101249 99201 121388 XOR\n2 1 62201 3523 101248 XOR\n2 1 101248 99200 121387 XOR\n2 1 62200 3522 101247 XOR\n2 1 101247 99199 121386 XOR\n2 1 62199 3521 101246 XOR\n2 1 101246 99198 121385 XOR\n2 1 62198 3520 101245 XOR\n2 1 101245 99197 121384 XOR\n2 1 62197 3551 101244 XOR\n2 1 101244 99196 121383 XOR\n2 1 62196 3550 101243 XOR\n2 1 101243 99195 121382 XOR\n2 1 62195 3549 101242 XOR\n2 1 101242 99194 121381 XOR\n2 1 62194 3548 101241 XOR\n2 1 101241 99193 121380 XOR\n2 1 62193 3547 101240 XOR\n2 1 101240 99192 121379 XOR\n2 1 62192 3546 101239 XOR\n2 1 101239 99191 121378 XOR\n2 1 62191 3545 101238 XOR\n2 1 101238 99190 121347 AND\n2 1 101238 99190 97142 XOR\n2 1 121378 121347 97143 XOR\n2 1 101239 121347 38967 XOR\n2 1 99191 121347 38968 XOR\n2 1 38967 38968 38966 AND\n2 1 38966 121347 121348 XOR\n2 1 121379 121348 97144 XOR\n2 1 101240 121348 38970 XOR\n2 1 99192 121348 38971 XOR\n2 1 38970 38971 38969 AND\n2 1 38969 121348 121349 XOR\n2 1 121380 121349 97145 XOR\n2 1 101241 121349 38973 XOR\n2 1 99193 121349 38974 XOR\n2 1 38973 38974 38972 AND\n2 1 38972 121349 121350 XOR\n2 1 121381 121350 97146 XOR\n2 1 101242 121350 38976 XOR\n2 1 99194 121350 38977 XOR\n",
"2 1 38976 38977 38975 AND\n2 1 38975 121350 121351 XOR\n2 1 121382 121351 97147 XOR\n2 1 101243 121351 38979 XOR\n2 1 99195 121351 38980 XOR\n2 1 38979 38980 38978 AND\n2 1 38978 121351 121352 XOR\n2 1 121383 121352 97148 XOR\n2 1 101244 121352 38982 XOR\n2 1 99196 121352 38983 XOR\n2 1 38982 38983 38981 AND\n2 1 38981 121352 121353 XOR\n2 1 121384 121353 97149 XOR\n2 1 101245 121353 38985 XOR\n2 1 99197 121353 38986 XOR\n2 1 38985 38986 38984 AND\n2 1 38984 121353 121354 XOR\n2 1 121385 121354 97150 XOR\n2 1 101246 121354 38988 XOR\n2 1 99198 121354 38989 XOR\n2 1 38988 38989 38987 AND\n2 1 38987 121354 121355 XOR\n2 1 121386 121355 97151 XOR\n2 1 101247 121355 38991 XOR\n2 1 99199 121355 38992 XOR\n2 1 38991 38992 38990 AND\n2 1 38990 121355 121356 XOR\n2 1 121387 121356 97152 XOR\n2 1 101248 121356 38994 XOR\n2 1 99200 121356 38995 XOR\n2 1 38994 38995 38993 AND\n2 1 38993 121356 121357 XOR\n2 1 121388 121357 97153 XOR\n2 1 101249 121357 38997 XOR\n2 1 99201 121357 38998 XOR\n2 1 38997 38998 38996 AND\n2 1 38996 121357 121358 XOR\n2 1 121389 121358 97154 XOR\n2 1 101250 121358 39000 XOR\n2 1 99202 121358 39001 XOR\n2 1 39000 39001 38999 AND\n2 1 38999 121358 121359 XOR\n2 1 121390 121359 97155 XOR\n2 1 101251 121359 39003 XOR\n2 1 99203 121359 39004 XOR\n2 1 39003 39004 39002 AND\n2 1 39002 121359 121360 XOR\n2 1 121391 121360 97156 XOR\n2 1 101252 121360 39006 XOR\n2 1 99204 121360 39007 XOR\n2 1 39006 39007 39005 AND\n2 1 39005 121360 121361 XOR\n2 1 121392 121361 97157 XOR\n2 1 101253 121361 39009 XOR\n2 1 99205 121361 39010 XOR\n2 1 39009 39010 39008 AND\n2 1 39008 121361 121362 XOR\n2 1 121393 121362 97158 XOR\n2 1 101254 121362 39012 XOR\n2 1 99206 121362 39013 XOR\n2 1 39012 39013 39011 AND\n2 1 39011 121362 121363 XOR\n2 1 121394 121363 97159 XOR\n2 1 101255 121363 39015 XOR\n2 1 99207 121363 39016 XOR\n2 1 39015 39016 39014 AND\n2 1 39014 121363 121364 XOR\n2 1 121395 121364 97160 XOR\n2 1 101256 121364 39018 XOR\n2 1 99208 121364 39019 XOR\n2 1 39018 39019 39017 AND\n2 1 39017 121364 121365 XOR\n2 1 121396 121365 97161 XOR\n2 1 101257 121365 39021 XOR\n2 1 99209 121365 39022 XOR\n2 1 39021 39022 39020 AND\n2 1 39020 121365 121366 XOR\n2 1 121397 121366 97162 XOR\n2 1 101258 121366 39024 XOR\n2 1 99210 121366 39025 XOR\n2 1 39024 39025 39023 AND\n2 1 39023 121366 121367 XOR\n2 1 121398 121367 97163 XOR\n2 1 101259 121367 39027 XOR\n2 1 99211 121367 39028 XOR\n2 1 39027 39028 39026 AND\n2 1 39026 121367 121368 XOR\n2 1 121399 121368 97164 XOR\n2 1 101260 121368 39030 XOR\n2 1 99212 121368 39031 XOR\n2 1 39030 39031 39029 AND\n2 1 39029 121368 121369 XOR\n2 1 121400 121369 97165 XOR\n2 1 101261 121369 39033 XOR\n2 1 99213 121369 39034 XOR\n2 1 39033 39034 39032 AND\n2 1 39032 121369 121370 XOR\n2 1 121401 121370 97166 XOR\n2 1 101262 121370 39036 XOR\n2 1 99214 121370 39037 XOR\n2 1 39036 39037 39035 AND\n2 1 39035 121370 121371 XOR\n2 1 121402 121371 97167 XOR\n2 1 101263 121371 39039 XOR\n2 1 99215 121371 39040 XOR\n2 1 39039 39040 39038 AND\n2 1 39038 121371 121372 XOR\n2 1 121403 121372 97168 XOR\n2 1 101264 121372 39042 XOR\n2 1 99216 121372 39043 XOR\n2 1 39042 39043 39041 AND\n2 1 39041 121372 121373 XOR\n2 1 121404 121373 97169 XOR\n2 1 101265 121373 39045 XOR\n2 1 99217 121373 39046 XOR\n2 1 39045 39046 39044 AND\n2 1 39044 121373 121374 XOR\n2 1 121405 121374 97170 XOR\n2 1 101266 121374 39048 XOR\n2 1 99218 121374 39049 XOR\n2 1 39048 39049 39047 AND\n2 1 39047 121374 121375 XOR\n2 1 121406 121375 97171 XOR\n2 1 101267 121375 39051 XOR\n2 1 99219 121375 39052 XOR\n2 1 39051 39052 39050 AND\n2 1 39050 121375 121376 XOR\n2 1 121407 121376 97172 XOR\n",
"2 1 101268 121376 39054 XOR\n2 1 99220 121376 39055 XOR\n2 1 39054 39055 39053 AND\n2 1 39053 121376 121377 XOR\n2 1 121408 121377 97173 XOR\n2 1 77057 77059 81872 XOR\n2 1 81872 95 134592 XOR\n2 1 77056 77058 81871 XOR\n2 1 81871 94 134591 XOR\n2 1 77055 77057 81870 XOR\n2 1 81870 93 134590 XOR\n2 1 77054 77056 81869 XOR\n2 1 81869 92 134589 XOR\n2 1 77053 77055 81868 XOR\n2 1 81868 91 134588 XOR\n2 1 77052 77054 81867 XOR\n2 1 81867 90 134587 XOR\n2 1 77051 77053 81866 XOR\n2 1 81866 89 134586 XOR\n2 1 77050 77052 81865 XOR\n2 1 81865 88 134585 XOR\n2 1 77049 77051 81864 XOR\n2 1 81864 87 134584 XOR\n2 1 77048 77050 81863 XOR\n2 1 81863 86 134583 XOR\n2 1 77047 77049 7079 XOR\n2 1 77046 77048 7078 XOR\n2 1 77045 77047 7077 XOR\n2 1 77044 77046 7076 XOR\n2 1 77043 77045 7075 XOR\n2 1 77042 77044 7074 XOR\n2 1 77041 77043 7073 XOR\n2 1 77072 77042 7072 XOR\n2 1 77071 77041 7071 XOR\n2 1 77070 77072 7070 XOR\n2 1 77069 77071 7069 XOR\n2 1 77068 77070 7068 XOR\n2 1 77067 77069 7067 XOR\n2 1 77066 77068 7066 XOR\n2 1 77065 77067 7065 XOR\n2 1 77064 77066 7064 XOR\n2 1 77063 77065 7063 XOR\n2 1 77062 77064 7062 XOR\n2 1 77061 77063 7061 XOR\n2 1 77060 77062 7060 XOR\n2 1 77059 77061 7059 XOR\n2 1 77058 77060 7058 XOR\n2 1 7079 77072 81862 XOR\n2 1 81862 85 134582 XOR\n2 1 7078 77071 81861 XOR\n2 1 81861 84 134581 XOR\n2 1 7077 77070 81860 XOR\n2 1 81860 83 134580 XOR\n2 1 7076 77069 81859 XOR\n2 1 81859 82 134579 XOR\n2 1 7075 77068 81858 XOR\n2 1 81858 81 134578 XOR\n2 1 7074 77067 81857 XOR\n2 1 81857 80 134577 XOR\n2 1 7073 77066 81856 XOR\n2 1 81856 79 134576 XOR\n2 1 7072 77065 81855 XOR\n2 1 81855 78 134575 XOR\n2 1 7071 77064 81854 XOR\n2 1 81854 77 134574 XOR\n2 1 7070 77063 81853 XOR\n2 1 81853 76 134573 XOR\n2 1 7069 77062 81852 XOR\n2 1 81852 75 134572 XOR\n2 1 7068 77061 81851 XOR\n2 1 81851 74 134571 XOR\n2 1 7067 77060 81850 XOR\n2 1 81850 73 134570 XOR\n2 1 7066 77059 81849 XOR\n2 1 81849 72 134569 XOR\n2 1 7065 77058 81848 XOR\n2 1 81848 71 134568 XOR\n2 1 7064 77057 81847 XOR\n2 1 81847 70 134567 XOR\n2 1 7063 77056 81846 XOR\n2 1 81846 69 134566 XOR\n2 1 7062 77055 81845 XOR\n2 1 81845 68 134565 XOR\n2 1 7061 77054 81844 XOR\n2 1 81844 67 134564 XOR\n2 1 7060 77053 81843 XOR\n2 1 81843 66 134563 XOR\n2 1 7059 77052 81842 XOR\n2 1 81842 65 134562 XOR\n2 1 7058 77051 81841 XOR\n2 1 81841 64 134531 AND\n2 1 81841 64 80305 XOR\n2 1 80305 78769 134407 AND\n2 1 80305 78769 76977 XOR\n2 1 76977 3616 121285 AND\n2 1 76977 3616 95094 XOR\n2 1 97142 95094 121223 AND\n2 1 97142 95094 93061 XOR\n1 1 93061 91057 INV\n2 1 97143 121223 38787 XOR\n2 1 3617 121285 38878 XOR\n2 1 91057 84913 2976 XOR\n2 1 91057 84913 107800 AND\n2 1 84914 107800 15608 XOR\n2 1 82865 76977 131493 AND\n2 1 82865 76977 78257 XOR\n2 1 82866 131493 55326 XOR\n2 1 78770 134407 59557 XOR\n2 1 134562 134531 80306 XOR\n2 1 80306 78770 134438 XOR\n2 1 134438 134407 76978 XOR\n2 1 76978 3617 121316 XOR\n2 1 121316 121285 95095 XOR\n2 1 97143 95095 121254 XOR\n2 1 121254 121223 93062 XOR\n1 1 93062 38769 INV\n2 1 38769 93061 91058 XOR\n2 1 93062 93061 38677 XOR\n2 1 38677 91057 38676 AND\n2 1 38676 93061 38752 XOR\n1 1 38752 38680 INV\n2 1 95095 121223 38788 XOR\n2 1 38787 38788 38786 AND\n2 1 38786 121223 121224 XOR\n2 1 97144 121224 38790 XOR\n2 1 76978 121285 38877 XOR\n2 1 38877 38878 38876 AND\n2 1 38876 121285 121286 XOR\n",
"2 1 3618 121286 38881 XOR\n2 1 91058 84914 107831 XOR\n2 1 91058 107800 15607 XOR\n2 1 15607 15608 15606 AND\n2 1 107831 107800 2977 XOR\n2 1 15606 107800 107801 XOR\n2 1 84915 107801 15611 XOR\n2 1 82866 76978 131524 XOR\n2 1 131524 131493 78258 XOR\n2 1 76978 131493 55327 XOR\n2 1 55326 55327 55325 AND\n2 1 55325 131493 131494 XOR\n2 1 82867 131494 55329 XOR\n2 1 80306 134407 59556 XOR\n2 1 59556 59557 59555 AND\n2 1 59555 134407 134408 XOR\n2 1 78771 134408 59560 XOR\n2 1 81842 134531 59736 XOR\n2 1 65 134531 59737 XOR\n2 1 59736 59737 59735 AND\n2 1 59735 134531 134532 XOR\n2 1 134563 134532 80307 XOR\n2 1 80307 78771 134439 XOR\n2 1 134439 134408 76979 XOR\n2 1 76979 3618 121317 XOR\n2 1 121317 121286 95096 XOR\n2 1 97144 95096 121255 XOR\n2 1 121255 121224 93063 XOR\n1 1 93063 38770 INV\n2 1 38770 38752 91059 XOR\n2 1 93063 38752 38679 XOR\n2 1 38679 38680 38678 AND\n2 1 38678 38752 38753 XOR\n1 1 38753 38683 INV\n2 1 95096 121224 38791 XOR\n2 1 38790 38791 38789 AND\n2 1 38789 121224 121225 XOR\n2 1 97145 121225 38793 XOR\n2 1 76979 121286 38880 XOR\n2 1 38880 38881 38879 AND\n2 1 38879 121286 121287 XOR\n2 1 3619 121287 38884 XOR\n2 1 91059 107801 15610 XOR\n2 1 15610 15611 15609 AND\n2 1 91059 84915 107832 XOR\n2 1 107832 107801 2978 XOR\n2 1 15609 107801 107802 XOR\n2 1 84916 107802 15614 XOR\n2 1 82867 76979 131525 XOR\n2 1 131525 131494 78259 XOR\n2 1 76979 131494 55330 XOR\n2 1 55329 55330 55328 AND\n2 1 55328 131494 131495 XOR\n2 1 82868 131495 55332 XOR\n2 1 80307 134408 59559 XOR\n2 1 59559 59560 59558 AND\n2 1 59558 134408 134409 XOR\n2 1 78772 134409 59563 XOR\n2 1 81843 134532 59739 XOR\n2 1 66 134532 59740 XOR\n2 1 59739 59740 59738 AND\n2 1 59738 134532 134533 XOR\n2 1 134564 134533 80308 XOR\n2 1 80308 78772 134440 XOR\n2 1 134440 134409 76980 XOR\n2 1 76980 3619 121318 XOR\n2 1 121318 121287 95097 XOR\n2 1 97145 95097 121256 XOR\n2 1 121256 121225 93064 XOR\n1 1 93064 38771 INV\n2 1 38771 38753 91060 XOR\n2 1 93064 38753 38682 XOR\n2 1 38682 38683 38681 AND\n2 1 38681 38753 38685 XOR\n2 1 95097 121225 38794 XOR\n2 1 38793 38794 38792 AND\n2 1 38792 121225 121226 XOR\n2 1 97146 121226 38796 XOR\n2 1 76980 121287 38883 XOR\n2 1 38883 38884 38882 AND\n2 1 38882 121287 121288 XOR\n2 1 3620 121288 38887 XOR\n2 1 91060 107802 15613 XOR\n2 1 15613 15614 15612 AND\n2 1 15612 107802 107803 XOR\n2 1 84917 107803 15617 XOR\n2 1 91060 84916 107833 XOR\n2 1 107833 107802 2979 XOR\n2 1 82868 76980 131526 XOR\n2 1 131526 131495 78260 XOR\n2 1 76980 131495 55333 XOR\n2 1 55332 55333 55331 AND\n2 1 55331 131495 131496 XOR\n2 1 82869 131496 55335 XOR\n2 1 80308 134409 59562 XOR\n2 1 59562 59563 59561 AND\n2 1 59561 134409 134410 XOR\n2 1 78773 134410 59566 XOR\n2 1 81844 134533 59742 XOR\n2 1 67 134533 59743 XOR\n2 1 59742 59743 59741 AND\n2 1 59741 134533 134534 XOR\n2 1 134565 134534 80309 XOR\n2 1 80309 78773 134441 XOR\n2 1 134441 134410 76981 XOR\n2 1 76981 3620 121319 XOR\n2 1 121319 121288 95098 XOR\n2 1 97146 95098 121257 XOR\n2 1 121257 121226 93065 XOR\n2 1 93065 38685 91061 XOR\n2 1 91061 38685 38684 AND\n2 1 38684 38685 38754 XOR\n1 1 38754 38688 INV\n2 1 95098 121226 38797 XOR\n2 1 38796 38797 38795 AND\n2 1 38795 121226 121227 XOR\n2 1 97147 121227 38799 XOR\n2 1 76981 121288 38886 XOR\n2 1 38886 38887 38885 AND\n2 1 38885 121288 121289 XOR\n2 1 3621 121289 38890 XOR\n2 1 91061 107803 15616 XOR\n2 1 15616 15617 15615 AND\n2 1 15615 107803 107804 XOR\n2 1 84918 107804 15620 XOR\n2 1 91061 84917 107834 XOR\n2 1 107834 107803 2980 XOR\n2 1 82869 76981 131527 XOR\n",
"2 1 131527 131496 78261 XOR\n2 1 76981 131496 55336 XOR\n2 1 55335 55336 55334 AND\n2 1 55334 131496 131497 XOR\n2 1 82870 131497 55338 XOR\n2 1 80309 134410 59565 XOR\n2 1 59565 59566 59564 AND\n2 1 59564 134410 134411 XOR\n2 1 78774 134411 59569 XOR\n2 1 81845 134534 59745 XOR\n2 1 68 134534 59746 XOR\n2 1 59745 59746 59744 AND\n2 1 59744 134534 134535 XOR\n2 1 134566 134535 80310 XOR\n2 1 80310 78774 134442 XOR\n2 1 134442 134411 76982 XOR\n2 1 76982 3621 121320 XOR\n2 1 121320 121289 95099 XOR\n2 1 97147 95099 121258 XOR\n2 1 121258 121227 93066 XOR\n1 1 93066 38772 INV\n2 1 38772 38754 91062 XOR\n2 1 93066 38754 38687 XOR\n2 1 38687 38688 38686 AND\n2 1 38686 38754 38755 XOR\n1 1 38755 38691 INV\n2 1 95099 121227 38800 XOR\n2 1 38799 38800 38798 AND\n2 1 38798 121227 121228 XOR\n2 1 97148 121228 38802 XOR\n2 1 76982 121289 38889 XOR\n2 1 38889 38890 38888 AND\n2 1 38888 121289 121290 XOR\n2 1 3622 121290 38893 XOR\n2 1 91062 107804 15619 XOR\n2 1 15619 15620 15618 AND\n2 1 15618 107804 107805 XOR\n2 1 91062 84918 107835 XOR\n2 1 107835 107804 2981 XOR\n2 1 84919 107805 15623 XOR\n2 1 82870 76982 131528 XOR\n2 1 131528 131497 78262 XOR\n2 1 76982 131497 55339 XOR\n2 1 55338 55339 55337 AND\n2 1 55337 131497 131498 XOR\n2 1 82871 131498 55341 XOR\n2 1 80310 134411 59568 XOR\n2 1 59568 59569 59567 AND\n2 1 59567 134411 134412 XOR\n2 1 78775 134412 59572 XOR\n2 1 81846 134535 59748 XOR\n2 1 69 134535 59749 XOR\n2 1 59748 59749 59747 AND\n2 1 59747 134535 134536 XOR\n2 1 134567 134536 80311 XOR\n2 1 80311 78775 134443 XOR\n2 1 134443 134412 76983 XOR\n2 1 76983 3622 121321 XOR\n2 1 121321 121290 95100 XOR\n2 1 97148 95100 121259 XOR\n2 1 121259 121228 93067 XOR\n1 1 93067 38773 INV\n2 1 38773 38755 91063 XOR\n2 1 93067 38755 38690 XOR\n2 1 38690 38691 38689 AND\n2 1 38689 38755 38693 XOR\n2 1 95100 121228 38803 XOR\n2 1 38802 38803 38801 AND\n2 1 38801 121228 121229 XOR\n2 1 97149 121229 38805 XOR\n2 1 76983 121290 38892 XOR\n2 1 38892 38893 38891 AND\n2 1 38891 121290 121291 XOR\n2 1 3623 121291 38896 XOR\n2 1 91063 84919 107836 XOR\n2 1 107836 107805 2982 XOR\n2 1 91063 107805 15622 XOR\n2 1 15622 15623 15621 AND\n2 1 15621 107805 107806 XOR\n2 1 84920 107806 15626 XOR\n2 1 82871 76983 131529 XOR\n2 1 131529 131498 78263 XOR\n2 1 76983 131498 55342 XOR\n2 1 55341 55342 55340 AND\n2 1 55340 131498 131499 XOR\n2 1 82872 131499 55344 XOR\n2 1 80311 134412 59571 XOR\n2 1 59571 59572 59570 AND\n2 1 59570 134412 134413 XOR\n2 1 78776 134413 59575 XOR\n2 1 81847 134536 59751 XOR\n2 1 70 134536 59752 XOR\n2 1 59751 59752 59750 AND\n2 1 59750 134536 134537 XOR\n2 1 134568 134537 80312 XOR\n2 1 80312 78776 134444 XOR\n2 1 134444 134413 76984 XOR\n2 1 76984 3623 121322 XOR\n2 1 121322 121291 95101 XOR\n2 1 97149 95101 121260 XOR\n2 1 121260 121229 93068 XOR\n2 1 93068 38693 91064 XOR\n2 1 91064 38693 38692 AND\n2 1 38692 38693 38695 XOR\n2 1 95101 121229 38806 XOR\n2 1 38805 38806 38804 AND\n2 1 38804 121229 121230 XOR\n2 1 97150 121230 38808 XOR\n2 1 76984 121291 38895 XOR\n2 1 38895 38896 38894 AND\n2 1 38894 121291 121292 XOR\n2 1 3624 121292 38899 XOR\n2 1 91064 84920 107837 XOR\n2 1 107837 107806 2983 XOR\n2 1 91064 107806 15625 XOR\n2 1 15625 15626 15624 AND\n2 1 15624 107806 107807 XOR\n2 1 84921 107807 15629 XOR\n2 1 82872 76984 131530 XOR\n2 1 131530 131499 78264 XOR\n2 1 76984 131499 55345 XOR\n2 1 55344 55345 55343 AND\n2 1 55343 131499 131500 XOR\n2 1 82873 131500 55347 XOR\n2 1 80312 134413 59574 XOR\n2 1 59574 59575 59573 AND\n2 1 59573 134413 134414 XOR\n2 1 78777 134414 59578 XOR\n",
"2 1 81848 134537 59754 XOR\n2 1 71 134537 59755 XOR\n2 1 59754 59755 59753 AND\n2 1 59753 134537 134538 XOR\n2 1 134569 134538 80313 XOR\n2 1 80313 78777 134445 XOR\n2 1 134445 134414 76985 XOR\n2 1 76985 3624 121323 XOR\n2 1 121323 121292 95102 XOR\n2 1 97150 95102 121261 XOR\n2 1 121261 121230 93069 XOR\n2 1 93069 38695 91065 XOR\n2 1 91065 38695 38694 AND\n2 1 38694 38695 38697 XOR\n2 1 95102 121230 38809 XOR\n2 1 38808 38809 38807 AND\n2 1 38807 121230 121231 XOR\n2 1 97151 121231 38811 XOR\n2 1 76985 121292 38898 XOR\n2 1 38898 38899 38897 AND\n2 1 38897 121292 121293 XOR\n2 1 3625 121293 38902 XOR\n2 1 91065 84921 107838 XOR\n2 1 91065 107807 15628 XOR\n2 1 15628 15629 15627 AND\n2 1 107838 107807 2984 XOR\n2 1 15627 107807 107808 XOR\n2 1 84922 107808 15632 XOR\n2 1 82873 76985 131531 XOR\n2 1 131531 131500 78265 XOR\n2 1 76985 131500 55348 XOR\n2 1 55347 55348 55346 AND\n2 1 55346 131500 131501 XOR\n2 1 82874 131501 55350 XOR\n2 1 80313 134414 59577 XOR\n2 1 59577 59578 59576 AND\n2 1 59576 134414 134415 XOR\n2 1 78778 134415 59581 XOR\n2 1 81849 134538 59757 XOR\n2 1 72 134538 59758 XOR\n2 1 59757 59758 59756 AND\n2 1 59756 134538 134539 XOR\n2 1 134570 134539 80314 XOR\n2 1 80314 78778 134446 XOR\n2 1 134446 134415 76986 XOR\n2 1 76986 3625 121324 XOR\n2 1 121324 121293 95103 XOR\n2 1 97151 95103 121262 XOR\n2 1 121262 121231 93070 XOR\n2 1 93070 38697 91066 XOR\n2 1 91066 38697 38696 AND\n2 1 38696 38697 38756 XOR\n1 1 38756 38700 INV\n2 1 95103 121231 38812 XOR\n2 1 38811 38812 38810 AND\n2 1 38810 121231 121232 XOR\n2 1 97152 121232 38814 XOR\n2 1 76986 121293 38901 XOR\n2 1 38901 38902 38900 AND\n2 1 38900 121293 121294 XOR\n2 1 3626 121294 38905 XOR\n2 1 91066 84922 107839 XOR\n2 1 91066 107808 15631 XOR\n2 1 15631 15632 15630 AND\n2 1 107839 107808 2985 XOR\n2 1 15630 107808 107809 XOR\n2 1 84923 107809 15635 XOR\n2 1 82874 76986 131532 XOR\n2 1 131532 131501 78266 XOR\n2 1 76986 131501 55351 XOR\n2 1 55350 55351 55349 AND\n2 1 55349 131501 131502 XOR\n2 1 82875 131502 55353 XOR\n2 1 80314 134415 59580 XOR\n2 1 59580 59581 59579 AND\n2 1 59579 134415 134416 XOR\n2 1 78779 134416 59584 XOR\n2 1 81850 134539 59760 XOR\n2 1 73 134539 59761 XOR\n2 1 59760 59761 59759 AND\n2 1 59759 134539 134540 XOR\n2 1 134571 134540 80315 XOR\n2 1 80315 78779 134447 XOR\n2 1 134447 134416 76987 XOR\n2 1 76987 3626 121325 XOR\n2 1 121325 121294 95104 XOR\n2 1 97152 95104 121263 XOR\n2 1 121263 121232 93071 XOR\n1 1 93071 38774 INV\n2 1 38774 38756 91067 XOR\n2 1 93071 38756 38699 XOR\n2 1 38699 38700 38698 AND\n2 1 38698 38756 38757 XOR\n1 1 38757 38703 INV\n2 1 95104 121232 38815 XOR\n2 1 38814 38815 38813 AND\n2 1 38813 121232 121233 XOR\n2 1 97153 121233 38817 XOR\n2 1 76987 121294 38904 XOR\n2 1 38904 38905 38903 AND\n2 1 38903 121294 121295 XOR\n2 1 3627 121295 38908 XOR\n2 1 91067 84923 107840 XOR\n2 1 107840 107809 2986 XOR\n2 1 91067 107809 15634 XOR\n2 1 15634 15635 15633 AND\n2 1 15633 107809 107810 XOR\n2 1 84924 107810 15638 XOR\n2 1 82875 76987 131533 XOR\n2 1 131533 131502 78267 XOR\n2 1 76987 131502 55354 XOR\n2 1 55353 55354 55352 AND\n2 1 55352 131502 131503 XOR\n2 1 82876 131503 55356 XOR\n2 1 80315 134416 59583 XOR\n2 1 59583 59584 59582 AND\n2 1 59582 134416 134417 XOR\n2 1 78780 134417 59587 XOR\n2 1 81851 134540 59763 XOR\n2 1 74 134540 59764 XOR\n2 1 59763 59764 59762 AND\n2 1 59762 134540 134541 XOR\n2 1 134572 134541 80316 XOR\n2 1 80316 78780 134448 XOR\n2 1 134448 134417 76988 XOR\n2 1 76988 3627 121326 XOR\n2 1 121326 121295 95105 XOR\n2 1 97153 95105 121264 XOR\n",
"2 1 121264 121233 93072 XOR\n1 1 93072 38775 INV\n2 1 38775 38757 91068 XOR\n2 1 93072 38757 38702 XOR\n2 1 38702 38703 38701 AND\n2 1 38701 38757 38705 XOR\n2 1 95105 121233 38818 XOR\n2 1 38817 38818 38816 AND\n2 1 38816 121233 121234 XOR\n2 1 97154 121234 38820 XOR\n2 1 76988 121295 38907 XOR\n2 1 38907 38908 38906 AND\n2 1 38906 121295 121296 XOR\n2 1 3628 121296 38911 XOR\n2 1 91068 107810 15637 XOR\n2 1 15637 15638 15636 AND\n2 1 15636 107810 107811 XOR\n2 1 84925 107811 15641 XOR\n2 1 91068 84924 107841 XOR\n2 1 107841 107810 2987 XOR\n2 1 82876 76988 131534 XOR\n2 1 131534 131503 78268 XOR\n2 1 76988 131503 55357 XOR\n2 1 55356 55357 55355 AND\n2 1 55355 131503 131504 XOR\n2 1 82877 131504 55359 XOR\n2 1 80316 134417 59586 XOR\n2 1 59586 59587 59585 AND\n2 1 59585 134417 134418 XOR\n2 1 78781 134418 59590 XOR\n2 1 81852 134541 59766 XOR\n2 1 75 134541 59767 XOR\n2 1 59766 59767 59765 AND\n2 1 59765 134541 134542 XOR\n2 1 134573 134542 80317 XOR\n2 1 80317 78781 134449 XOR\n2 1 134449 134418 76989 XOR\n2 1 76989 3628 121327 XOR\n2 1 121327 121296 95106 XOR\n2 1 97154 95106 121265 XOR\n2 1 121265 121234 93073 XOR\n2 1 93073 38705 91069 XOR\n2 1 91069 38705 38704 AND\n2 1 38704 38705 38758 XOR\n1 1 38758 38708 INV\n2 1 95106 121234 38821 XOR\n2 1 38820 38821 38819 AND\n2 1 38819 121234 121235 XOR\n2 1 97155 121235 38823 XOR\n2 1 76989 121296 38910 XOR\n2 1 38910 38911 38909 AND\n2 1 38909 121296 121297 XOR\n2 1 3629 121297 38914 XOR\n2 1 91069 107811 15640 XOR\n2 1 15640 15641 15639 AND\n2 1 15639 107811 107812 XOR\n2 1 91069 84925 107842 XOR\n2 1 107842 107811 2988 XOR\n2 1 84926 107812 15644 XOR\n2 1 82877 76989 131535 XOR\n2 1 131535 131504 78269 XOR\n2 1 76989 131504 55360 XOR\n2 1 55359 55360 55358 AND\n2 1 55358 131504 131505 XOR\n2 1 82878 131505 55362 XOR\n2 1 80317 134418 59589 XOR\n2 1 59589 59590 59588 AND\n2 1 59588 134418 134419 XOR\n2 1 78782 134419 59593 XOR\n2 1 81853 134542 59769 XOR\n2 1 76 134542 59770 XOR\n2 1 59769 59770 59768 AND\n2 1 59768 134542 134543 XOR\n2 1 134574 134543 80318 XOR\n2 1 80318 78782 134450 XOR\n2 1 134450 134419 76990 XOR\n2 1 76990 3629 121328 XOR\n2 1 121328 121297 95107 XOR\n2 1 97155 95107 121266 XOR\n2 1 121266 121235 93074 XOR\n1 1 93074 38776 INV\n2 1 38776 38758 91070 XOR\n2 1 93074 38758 38707 XOR\n2 1 38707 38708 38706 AND\n2 1 38706 38758 38710 XOR\n2 1 95107 121235 38824 XOR\n2 1 38823 38824 38822 AND\n2 1 38822 121235 121236 XOR\n2 1 97156 121236 38826 XOR\n2 1 76990 121297 38913 XOR\n2 1 38913 38914 38912 AND\n2 1 38912 121297 121298 XOR\n2 1 3630 121298 38917 XOR\n2 1 91070 84926 107843 XOR\n2 1 107843 107812 2989 XOR\n2 1 91070 107812 15643 XOR\n2 1 15643 15644 15642 AND\n2 1 15642 107812 107813 XOR\n2 1 84927 107813 15647 XOR\n2 1 82878 76990 131536 XOR\n2 1 131536 131505 78270 XOR\n2 1 76990 131505 55363 XOR\n2 1 55362 55363 55361 AND\n2 1 55361 131505 131506 XOR\n2 1 82879 131506 55365 XOR\n2 1 80318 134419 59592 XOR\n2 1 59592 59593 59591 AND\n2 1 59591 134419 134420 XOR\n2 1 78783 134420 59596 XOR\n2 1 81854 134543 59772 XOR\n2 1 77 134543 59773 XOR\n2 1 59772 59773 59771 AND\n2 1 59771 134543 134544 XOR\n2 1 134575 134544 80319 XOR\n2 1 80319 78783 134451 XOR\n2 1 134451 134420 76991 XOR\n2 1 76991 3630 121329 XOR\n2 1 121329 121298 95108 XOR\n2 1 97156 95108 121267 XOR\n2 1 121267 121236 93075 XOR\n2 1 93075 38710 91071 XOR\n2 1 91071 38710 38709 AND\n2 1 38709 38710 38712 XOR\n2 1 95108 121236 38827 XOR\n2 1 38826 38827 38825 AND\n2 1 38825 121236 121237 XOR\n2 1 97157 121237 38829 XOR\n2 1 76991 121298 38916 XOR\n",
"2 1 38916 38917 38915 AND\n2 1 38915 121298 121299 XOR\n2 1 3631 121299 38920 XOR\n2 1 91071 84927 107844 XOR\n2 1 107844 107813 2990 XOR\n2 1 91071 107813 15646 XOR\n2 1 15646 15647 15645 AND\n2 1 15645 107813 107814 XOR\n2 1 84928 107814 15650 XOR\n2 1 82879 76991 131537 XOR\n2 1 131537 131506 78271 XOR\n2 1 76991 131506 55366 XOR\n2 1 55365 55366 55364 AND\n2 1 55364 131506 131507 XOR\n2 1 82880 131507 55368 XOR\n2 1 80319 134420 59595 XOR\n2 1 59595 59596 59594 AND\n2 1 59594 134420 134421 XOR\n2 1 78784 134421 59599 XOR\n2 1 81855 134544 59775 XOR\n2 1 78 134544 59776 XOR\n2 1 59775 59776 59774 AND\n2 1 59774 134544 134545 XOR\n2 1 134576 134545 80320 XOR\n2 1 80320 78784 134452 XOR\n2 1 134452 134421 76992 XOR\n2 1 76992 3631 121330 XOR\n2 1 121330 121299 95109 XOR\n2 1 97157 95109 121268 XOR\n2 1 121268 121237 93076 XOR\n2 1 93076 38712 91072 XOR\n2 1 91072 38712 38711 AND\n2 1 38711 38712 38759 XOR\n1 1 38759 38715 INV\n2 1 95109 121237 38830 XOR\n2 1 38829 38830 38828 AND\n2 1 38828 121237 121238 XOR\n2 1 97158 121238 38832 XOR\n2 1 76992 121299 38919 XOR\n2 1 38919 38920 38918 AND\n2 1 38918 121299 121300 XOR\n2 1 3632 121300 38923 XOR\n2 1 91072 84928 107845 XOR\n2 1 107845 107814 2991 XOR\n2 1 91072 107814 15649 XOR\n2 1 15649 15650 15648 AND\n2 1 15648 107814 107815 XOR\n2 1 84929 107815 15653 XOR\n2 1 82880 76992 131538 XOR\n2 1 131538 131507 78272 XOR\n2 1 76992 131507 55369 XOR\n2 1 55368 55369 55367 AND\n2 1 55367 131507 131508 XOR\n2 1 82881 131508 55371 XOR\n2 1 80320 134421 59598 XOR\n2 1 59598 59599 59597 AND\n2 1 59597 134421 134422 XOR\n2 1 78785 134422 59602 XOR\n2 1 81856 134545 59778 XOR\n2 1 79 134545 59779 XOR\n2 1 59778 59779 59777 AND\n2 1 59777 134545 134546 XOR\n2 1 134577 134546 80321 XOR\n2 1 80321 78785 134453 XOR\n2 1 134453 134422 76993 XOR\n2 1 76993 3632 121331 XOR\n2 1 121331 121300 95110 XOR\n2 1 97158 95110 121269 XOR\n2 1 121269 121238 93077 XOR\n1 1 93077 38777 INV\n2 1 38777 38759 91073 XOR\n2 1 93077 38759 38714 XOR\n2 1 38714 38715 38713 AND\n2 1 38713 38759 38717 XOR\n2 1 95110 121238 38833 XOR\n2 1 38832 38833 38831 AND\n2 1 38831 121238 121239 XOR\n2 1 97159 121239 38835 XOR\n2 1 76993 121300 38922 XOR\n2 1 38922 38923 38921 AND\n2 1 38921 121300 121301 XOR\n2 1 3633 121301 38926 XOR\n2 1 91073 107815 15652 XOR\n2 1 15652 15653 15651 AND\n2 1 91073 84929 107846 XOR\n2 1 15651 107815 107816 XOR\n2 1 84930 107816 15656 XOR\n2 1 107846 107815 2992 XOR\n2 1 82881 76993 131539 XOR\n2 1 131539 131508 78273 XOR\n2 1 76993 131508 55372 XOR\n2 1 55371 55372 55370 AND\n2 1 55370 131508 131509 XOR\n2 1 82882 131509 55374 XOR\n2 1 80321 134422 59601 XOR\n2 1 59601 59602 59600 AND\n2 1 59600 134422 134423 XOR\n2 1 78786 134423 59605 XOR\n2 1 81857 134546 59781 XOR\n2 1 80 134546 59782 XOR\n2 1 59781 59782 59780 AND\n2 1 59780 134546 134547 XOR\n2 1 134578 134547 80322 XOR\n2 1 80322 78786 134454 XOR\n2 1 134454 134423 76994 XOR\n2 1 76994 3633 121332 XOR\n2 1 121332 121301 95111 XOR\n2 1 97159 95111 121270 XOR\n2 1 121270 121239 93078 XOR\n2 1 93078 38717 91074 XOR\n2 1 91074 38717 38716 AND\n2 1 38716 38717 38719 XOR\n2 1 95111 121239 38836 XOR\n2 1 38835 38836 38834 AND\n2 1 38834 121239 121240 XOR\n2 1 97160 121240 38838 XOR\n2 1 76994 121301 38925 XOR\n2 1 38925 38926 38924 AND\n2 1 38924 121301 121302 XOR\n2 1 3634 121302 38929 XOR\n2 1 91074 84930 107847 XOR\n2 1 91074 107816 15655 XOR\n2 1 15655 15656 15654 AND\n2 1 107847 107816 2993 XOR\n2 1 15654 107816 107817 XOR\n2 1 84931 107817 15659 XOR\n2 1 82882 76994 131540 XOR\n2 1 131540 131509 78274 XOR\n",
"2 1 76994 131509 55375 XOR\n2 1 55374 55375 55373 AND\n2 1 55373 131509 131510 XOR\n2 1 82883 131510 55377 XOR\n2 1 80322 134423 59604 XOR\n2 1 59604 59605 59603 AND\n2 1 59603 134423 134424 XOR\n2 1 78787 134424 59608 XOR\n2 1 81858 134547 59784 XOR\n2 1 81 134547 59785 XOR\n2 1 59784 59785 59783 AND\n2 1 59783 134547 134548 XOR\n2 1 134579 134548 80323 XOR\n2 1 80323 78787 134455 XOR\n2 1 134455 134424 76995 XOR\n2 1 76995 3634 121333 XOR\n2 1 121333 121302 95112 XOR\n2 1 97160 95112 121271 XOR\n2 1 121271 121240 93079 XOR\n2 1 93079 38719 91075 XOR\n2 1 91075 38719 38718 AND\n2 1 38718 38719 38760 XOR\n1 1 38760 38722 INV\n2 1 95112 121240 38839 XOR\n2 1 38838 38839 38837 AND\n2 1 38837 121240 121241 XOR\n2 1 97161 121241 38841 XOR\n2 1 76995 121302 38928 XOR\n2 1 38928 38929 38927 AND\n2 1 38927 121302 121303 XOR\n2 1 3635 121303 38932 XOR\n2 1 91075 84931 107848 XOR\n2 1 107848 107817 2994 XOR\n2 1 91075 107817 15658 XOR\n2 1 15658 15659 15657 AND\n2 1 15657 107817 107818 XOR\n2 1 84932 107818 15662 XOR\n2 1 82883 76995 131541 XOR\n2 1 131541 131510 78275 XOR\n2 1 76995 131510 55378 XOR\n2 1 55377 55378 55376 AND\n2 1 55376 131510 131511 XOR\n2 1 82884 131511 55380 XOR\n2 1 80323 134424 59607 XOR\n2 1 59607 59608 59606 AND\n2 1 59606 134424 134425 XOR\n2 1 78788 134425 59611 XOR\n2 1 81859 134548 59787 XOR\n2 1 82 134548 59788 XOR\n2 1 59787 59788 59786 AND\n2 1 59786 134548 134549 XOR\n2 1 134580 134549 80324 XOR\n2 1 80324 78788 134456 XOR\n2 1 134456 134425 76996 XOR\n2 1 76996 3635 121334 XOR\n2 1 121334 121303 95113 XOR\n2 1 97161 95113 121272 XOR\n2 1 121272 121241 93080 XOR\n1 1 93080 38778 INV\n2 1 38778 38760 91076 XOR\n2 1 93080 38760 38721 XOR\n2 1 38721 38722 38720 AND\n2 1 38720 38760 38724 XOR\n2 1 95113 121241 38842 XOR\n2 1 38841 38842 38840 AND\n2 1 38840 121241 121242 XOR\n2 1 97162 121242 38844 XOR\n2 1 76996 121303 38931 XOR\n2 1 38931 38932 38930 AND\n2 1 38930 121303 121304 XOR\n2 1 3636 121304 38935 XOR\n2 1 91076 84932 107849 XOR\n2 1 107849 107818 2995 XOR\n2 1 91076 107818 15661 XOR\n2 1 15661 15662 15660 AND\n2 1 15660 107818 107819 XOR\n2 1 84933 107819 15665 XOR\n2 1 82884 76996 131542 XOR\n2 1 131542 131511 78276 XOR\n2 1 76996 131511 55381 XOR\n2 1 55380 55381 55379 AND\n2 1 55379 131511 131512 XOR\n2 1 82885 131512 55383 XOR\n2 1 80324 134425 59610 XOR\n2 1 59610 59611 59609 AND\n2 1 59609 134425 134426 XOR\n2 1 78789 134426 59614 XOR\n2 1 81860 134549 59790 XOR\n2 1 83 134549 59791 XOR\n2 1 59790 59791 59789 AND\n2 1 59789 134549 134550 XOR\n2 1 134581 134550 80325 XOR\n2 1 80325 78789 134457 XOR\n2 1 134457 134426 76997 XOR\n2 1 76997 3636 121335 XOR\n2 1 121335 121304 95114 XOR\n2 1 97162 95114 121273 XOR\n2 1 121273 121242 93081 XOR\n2 1 93081 38724 91077 XOR\n2 1 91077 38724 38723 AND\n2 1 38723 38724 38761 XOR\n1 1 38761 38727 INV\n2 1 95114 121242 38845 XOR\n2 1 38844 38845 38843 AND\n2 1 38843 121242 121243 XOR\n2 1 97163 121243 38847 XOR\n2 1 76997 121304 38934 XOR\n2 1 38934 38935 38933 AND\n2 1 38933 121304 121305 XOR\n2 1 3637 121305 38938 XOR\n2 1 91077 84933 107850 XOR\n2 1 91077 107819 15664 XOR\n2 1 15664 15665 15663 AND\n2 1 15663 107819 107820 XOR\n2 1 107850 107819 2996 XOR\n2 1 84934 107820 15668 XOR\n2 1 82885 76997 131543 XOR\n2 1 131543 131512 78277 XOR\n2 1 76997 131512 55384 XOR\n2 1 55383 55384 55382 AND\n2 1 55382 131512 131513 XOR\n2 1 82886 131513 55386 XOR\n2 1 80325 134426 59613 XOR\n2 1 59613 59614 59612 AND\n2 1 59612 134426 134427 XOR\n2 1 78790 134427 59617 XOR\n2 1 81861 134550 59793 XOR\n2 1 84 134550 59794 XOR\n",
"2 1 59793 59794 59792 AND\n2 1 59792 134550 134551 XOR\n2 1 134582 134551 80326 XOR\n2 1 80326 78790 134458 XOR\n2 1 134458 134427 76998 XOR\n2 1 76998 3637 121336 XOR\n2 1 121336 121305 95115 XOR\n2 1 97163 95115 121274 XOR\n2 1 121274 121243 93082 XOR\n1 1 93082 38779 INV\n2 1 38779 38761 91078 XOR\n2 1 93082 38761 38726 XOR\n2 1 38726 38727 38725 AND\n2 1 38725 38761 38762 XOR\n1 1 38762 38730 INV\n2 1 95115 121243 38848 XOR\n2 1 38847 38848 38846 AND\n2 1 38846 121243 121244 XOR\n2 1 97164 121244 38850 XOR\n2 1 76998 121305 38937 XOR\n2 1 38937 38938 38936 AND\n2 1 38936 121305 121306 XOR\n2 1 3638 121306 38941 XOR\n2 1 91078 84934 107851 XOR\n2 1 107851 107820 2997 XOR\n2 1 91078 107820 15667 XOR\n2 1 15667 15668 15666 AND\n2 1 15666 107820 107821 XOR\n2 1 84935 107821 15671 XOR\n2 1 82886 76998 131544 XOR\n2 1 131544 131513 78278 XOR\n2 1 76998 131513 55387 XOR\n2 1 55386 55387 55385 AND\n2 1 55385 131513 131514 XOR\n2 1 82887 131514 55389 XOR\n2 1 80326 134427 59616 XOR\n2 1 59616 59617 59615 AND\n2 1 59615 134427 134428 XOR\n2 1 78791 134428 59620 XOR\n2 1 81862 134551 59796 XOR\n2 1 85 134551 59797 XOR\n2 1 59796 59797 59795 AND\n2 1 59795 134551 134552 XOR\n2 1 134583 134552 80327 XOR\n2 1 80327 78791 134459 XOR\n2 1 134459 134428 76999 XOR\n2 1 76999 3638 121337 XOR\n2 1 121337 121306 95116 XOR\n2 1 97164 95116 121275 XOR\n2 1 121275 121244 93083 XOR\n1 1 93083 38780 INV\n2 1 38780 38762 91079 XOR\n2 1 93083 38762 38729 XOR\n2 1 38729 38730 38728 AND\n2 1 38728 38762 38763 XOR\n1 1 38763 38733 INV\n2 1 95116 121244 38851 XOR\n2 1 38850 38851 38849 AND\n2 1 38849 121244 121245 XOR\n2 1 97165 121245 38853 XOR\n2 1 76999 121306 38940 XOR\n2 1 38940 38941 38939 AND\n2 1 38939 121306 121307 XOR\n2 1 3639 121307 38944 XOR\n2 1 91079 84935 107852 XOR\n2 1 91079 107821 15670 XOR\n2 1 107852 107821 2998 XOR\n2 1 15670 15671 15669 AND\n2 1 15669 107821 107822 XOR\n2 1 84936 107822 15674 XOR\n2 1 82887 76999 131545 XOR\n2 1 131545 131514 78279 XOR\n2 1 76999 131514 55390 XOR\n2 1 55389 55390 55388 AND\n2 1 55388 131514 131515 XOR\n2 1 82888 131515 55392 XOR\n2 1 80327 134428 59619 XOR\n2 1 59619 59620 59618 AND\n2 1 59618 134428 134429 XOR\n2 1 78792 134429 59623 XOR\n2 1 81863 134552 59799 XOR\n2 1 86 134552 59800 XOR\n2 1 59799 59800 59798 AND\n2 1 59798 134552 134553 XOR\n2 1 134584 134553 80328 XOR\n2 1 80328 78792 134460 XOR\n2 1 134460 134429 77000 XOR\n2 1 77000 3639 121338 XOR\n2 1 121338 121307 95117 XOR\n2 1 97165 95117 121276 XOR\n2 1 121276 121245 93084 XOR\n1 1 93084 38781 INV\n2 1 38781 38763 91080 XOR\n2 1 93084 38763 38732 XOR\n2 1 38732 38733 38731 AND\n2 1 38731 38763 38764 XOR\n1 1 38764 38736 INV\n2 1 95117 121245 38854 XOR\n2 1 38853 38854 38852 AND\n2 1 38852 121245 121246 XOR\n2 1 97166 121246 38856 XOR\n2 1 77000 121307 38943 XOR\n2 1 38943 38944 38942 AND\n2 1 38942 121307 121308 XOR\n2 1 3640 121308 38947 XOR\n2 1 91080 84936 107853 XOR\n2 1 91080 107822 15673 XOR\n2 1 15673 15674 15672 AND\n2 1 107853 107822 2999 XOR\n2 1 15672 107822 107823 XOR\n2 1 84937 107823 15677 XOR\n2 1 82888 77000 131546 XOR\n2 1 131546 131515 78280 XOR\n2 1 77000 131515 55393 XOR\n2 1 55392 55393 55391 AND\n2 1 55391 131515 131516 XOR\n2 1 82889 131516 55395 XOR\n2 1 80328 134429 59622 XOR\n2 1 59622 59623 59621 AND\n2 1 59621 134429 134430 XOR\n2 1 78793 134430 59626 XOR\n2 1 81864 134553 59802 XOR\n2 1 87 134553 59803 XOR\n2 1 59802 59803 59801 AND\n2 1 59801 134553 134554 XOR\n2 1 134585 134554 80329 XOR\n2 1 80329 78793 134461 XOR\n2 1 134461 134430 77001 XOR\n",
"2 1 77001 3640 121339 XOR\n2 1 121339 121308 95118 XOR\n2 1 97166 95118 121277 XOR\n2 1 121277 121246 93085 XOR\n1 1 93085 38782 INV\n2 1 38782 38764 91081 XOR\n2 1 93085 38764 38735 XOR\n2 1 38735 38736 38734 AND\n2 1 38734 38764 38738 XOR\n2 1 95118 121246 38857 XOR\n2 1 38856 38857 38855 AND\n2 1 38855 121246 121247 XOR\n2 1 97167 121247 38859 XOR\n2 1 77001 121308 38946 XOR\n2 1 38946 38947 38945 AND\n2 1 38945 121308 121309 XOR\n2 1 3641 121309 38950 XOR\n2 1 91081 107823 15676 XOR\n2 1 15676 15677 15675 AND\n2 1 15675 107823 107824 XOR\n2 1 84938 107824 15680 XOR\n2 1 91081 84937 107854 XOR\n2 1 107854 107823 3000 XOR\n2 1 82889 77001 131547 XOR\n2 1 131547 131516 78281 XOR\n2 1 77001 131516 55396 XOR\n2 1 55395 55396 55394 AND\n2 1 55394 131516 131517 XOR\n2 1 82890 131517 55398 XOR\n2 1 80329 134430 59625 XOR\n2 1 59625 59626 59624 AND\n2 1 59624 134430 134431 XOR\n2 1 78794 134431 59629 XOR\n2 1 81865 134554 59805 XOR\n2 1 88 134554 59806 XOR\n2 1 59805 59806 59804 AND\n2 1 59804 134554 134555 XOR\n2 1 134586 134555 80330 XOR\n2 1 80330 78794 134462 XOR\n2 1 134462 134431 77002 XOR\n2 1 77002 3641 121340 XOR\n2 1 121340 121309 95119 XOR\n2 1 97167 95119 121278 XOR\n2 1 121278 121247 93086 XOR\n2 1 93086 38738 91082 XOR\n2 1 91082 38738 38737 AND\n2 1 38737 38738 38765 XOR\n1 1 38765 38741 INV\n2 1 95119 121247 38860 XOR\n2 1 38859 38860 38858 AND\n2 1 38858 121247 121248 XOR\n2 1 97168 121248 38862 XOR\n2 1 77002 121309 38949 XOR\n2 1 38949 38950 38948 AND\n2 1 38948 121309 121310 XOR\n2 1 3642 121310 38953 XOR\n2 1 91082 107824 15679 XOR\n2 1 15679 15680 15678 AND\n2 1 15678 107824 107825 XOR\n2 1 84939 107825 15683 XOR\n2 1 91082 84938 107855 XOR\n2 1 107855 107824 3001 XOR\n2 1 82890 77002 131548 XOR\n2 1 131548 131517 78282 XOR\n2 1 77002 131517 55399 XOR\n2 1 55398 55399 55397 AND\n2 1 55397 131517 131518 XOR\n2 1 82891 131518 55401 XOR\n2 1 80330 134431 59628 XOR\n2 1 59628 59629 59627 AND\n2 1 59627 134431 134432 XOR\n2 1 78795 134432 59632 XOR\n2 1 81866 134555 59808 XOR\n2 1 89 134555 59809 XOR\n2 1 59808 59809 59807 AND\n2 1 59807 134555 134556 XOR\n2 1 134587 134556 80331 XOR\n2 1 80331 78795 134463 XOR\n2 1 134463 134432 77003 XOR\n2 1 77003 3642 121341 XOR\n2 1 121341 121310 95120 XOR\n2 1 97168 95120 121279 XOR\n2 1 121279 121248 93087 XOR\n1 1 93087 38783 INV\n2 1 38783 38765 91083 XOR\n2 1 93087 38765 38740 XOR\n2 1 38740 38741 38739 AND\n2 1 38739 38765 38766 XOR\n1 1 38766 38744 INV\n2 1 95120 121248 38863 XOR\n2 1 38862 38863 38861 AND\n2 1 38861 121248 121249 XOR\n2 1 97169 121249 38865 XOR\n2 1 77003 121310 38952 XOR\n2 1 38952 38953 38951 AND\n2 1 38951 121310 121311 XOR\n2 1 3643 121311 38956 XOR\n2 1 91083 107825 15682 XOR\n2 1 15682 15683 15681 AND\n2 1 15681 107825 107826 XOR\n2 1 91083 84939 107856 XOR\n2 1 107856 107825 3002 XOR\n2 1 84940 107826 15686 XOR\n2 1 82891 77003 131549 XOR\n2 1 131549 131518 78283 XOR\n2 1 77003 131518 55402 XOR\n2 1 55401 55402 55400 AND\n2 1 55400 131518 131519 XOR\n2 1 82892 131519 55404 XOR\n2 1 80331 134432 59631 XOR\n2 1 59631 59632 59630 AND\n2 1 59630 134432 134433 XOR\n2 1 78796 134433 59635 XOR\n2 1 81867 134556 59811 XOR\n2 1 90 134556 59812 XOR\n2 1 59811 59812 59810 AND\n2 1 59810 134556 134557 XOR\n2 1 134588 134557 80332 XOR\n2 1 80332 78796 134464 XOR\n2 1 134464 134433 77004 XOR\n2 1 77004 3643 121342 XOR\n2 1 121342 121311 95121 XOR\n2 1 97169 95121 121280 XOR\n2 1 121280 121249 93088 XOR\n1 1 93088 38784 INV\n2 1 38784 38766 91084 XOR\n2 1 93088 38766 38743 XOR\n2 1 38743 38744 38742 AND\n",
"2 1 38742 38766 38746 XOR\n2 1 95121 121249 38866 XOR\n2 1 38865 38866 38864 AND\n2 1 38864 121249 121250 XOR\n2 1 97170 121250 38868 XOR\n2 1 77004 121311 38955 XOR\n2 1 38955 38956 38954 AND\n2 1 38954 121311 121312 XOR\n2 1 3644 121312 38959 XOR\n2 1 91084 84940 107857 XOR\n2 1 91084 107826 15685 XOR\n2 1 15685 15686 15684 AND\n2 1 15684 107826 107827 XOR\n2 1 107857 107826 3003 XOR\n2 1 84941 107827 15689 XOR\n2 1 82892 77004 131550 XOR\n2 1 131550 131519 78284 XOR\n2 1 77004 131519 55405 XOR\n2 1 55404 55405 55403 AND\n2 1 55403 131519 131520 XOR\n2 1 82893 131520 55407 XOR\n2 1 80332 134433 59634 XOR\n2 1 59634 59635 59633 AND\n2 1 59633 134433 134434 XOR\n2 1 78797 134434 59638 XOR\n2 1 81868 134557 59814 XOR\n2 1 91 134557 59815 XOR\n2 1 59814 59815 59813 AND\n2 1 59813 134557 134558 XOR\n2 1 134589 134558 80333 XOR\n2 1 80333 78797 134465 XOR\n2 1 134465 134434 77005 XOR\n2 1 77005 3644 121343 XOR\n2 1 121343 121312 95122 XOR\n2 1 97170 95122 121281 XOR\n2 1 121281 121250 93089 XOR\n2 1 93089 38746 91085 XOR\n2 1 91085 38746 38745 AND\n2 1 38745 38746 38767 XOR\n1 1 38767 38749 INV\n2 1 95122 121250 38869 XOR\n2 1 38868 38869 38867 AND\n2 1 38867 121250 121251 XOR\n2 1 97171 121251 38871 XOR\n2 1 77005 121312 38958 XOR\n2 1 38958 38959 38957 AND\n2 1 38957 121312 121313 XOR\n2 1 3645 121313 38962 XOR\n2 1 91085 84941 107858 XOR\n2 1 107858 107827 3004 XOR\n2 1 91085 107827 15688 XOR\n2 1 15688 15689 15687 AND\n2 1 15687 107827 107828 XOR\n2 1 84942 107828 15692 XOR\n2 1 82893 77005 131551 XOR\n2 1 131551 131520 78285 XOR\n2 1 77005 131520 55408 XOR\n2 1 55407 55408 55406 AND\n2 1 55406 131520 131521 XOR\n2 1 82894 131521 55410 XOR\n2 1 80333 134434 59637 XOR\n2 1 59637 59638 59636 AND\n2 1 59636 134434 134435 XOR\n2 1 78798 134435 59641 XOR\n2 1 81869 134558 59817 XOR\n2 1 92 134558 59818 XOR\n2 1 59817 59818 59816 AND\n2 1 59816 134558 134559 XOR\n2 1 134590 134559 80334 XOR\n2 1 80334 78798 134466 XOR\n2 1 134466 134435 77006 XOR\n2 1 77006 3645 121344 XOR\n2 1 121344 121313 95123 XOR\n2 1 97171 95123 121282 XOR\n2 1 121282 121251 93090 XOR\n1 1 93090 38785 INV\n2 1 38785 38767 91086 XOR\n2 1 93090 38767 38748 XOR\n2 1 38748 38749 38747 AND\n2 1 38747 38767 38751 XOR\n2 1 95123 121251 38872 XOR\n2 1 38871 38872 38870 AND\n2 1 38870 121251 121252 XOR\n2 1 97172 121252 38874 XOR\n2 1 77006 121313 38961 XOR\n2 1 38961 38962 38960 AND\n2 1 38960 121313 121314 XOR\n2 1 3646 121314 38965 XOR\n2 1 91086 107828 15691 XOR\n2 1 91086 84942 107859 XOR\n2 1 107859 107828 3005 XOR\n2 1 15691 15692 15690 AND\n2 1 15690 107828 107829 XOR\n2 1 84943 107829 15695 XOR\n2 1 82894 77006 131552 XOR\n2 1 131552 131521 78286 XOR\n2 1 77006 131521 55411 XOR\n2 1 55410 55411 55409 AND\n2 1 55409 131521 131522 XOR\n2 1 82895 131522 55413 XOR\n2 1 80334 134435 59640 XOR\n2 1 59640 59641 59639 AND\n2 1 59639 134435 134436 XOR\n2 1 78799 134436 59644 XOR\n2 1 81870 134559 59820 XOR\n2 1 93 134559 59821 XOR\n2 1 59820 59821 59819 AND\n2 1 59819 134559 134560 XOR\n2 1 134591 134560 80335 XOR\n2 1 80335 78799 134467 XOR\n2 1 134467 134436 77007 XOR\n2 1 77007 3646 121345 XOR\n2 1 121345 121314 95124 XOR\n2 1 97172 95124 121283 XOR\n2 1 121283 121252 93091 XOR\n2 1 93091 38751 91087 XOR\n2 1 91087 38751 38750 AND\n2 1 38750 38751 38768 XOR\n2 1 95124 121252 38875 XOR\n2 1 38874 38875 38873 AND\n2 1 38873 121252 121253 XOR\n2 1 77007 121314 38964 XOR\n2 1 38964 38965 38963 AND\n2 1 38963 121314 121315 XOR\n2 1 91087 107829 15694 XOR\n2 1 15694 15695 15693 AND\n2 1 15693 107829 107830 XOR\n2 1 91087 84943 107860 XOR\n",
"2 1 107860 107829 3006 XOR\n2 1 82895 77007 131553 XOR\n2 1 131553 131522 78287 XOR\n2 1 77007 131522 55414 XOR\n2 1 55413 55414 55412 AND\n2 1 55412 131522 131523 XOR\n2 1 80335 134436 59643 XOR\n2 1 59643 59644 59642 AND\n2 1 59642 134436 134437 XOR\n2 1 81871 134560 59823 XOR\n2 1 94 134560 59824 XOR\n2 1 59823 59824 59822 AND\n2 1 59822 134560 134561 XOR\n2 1 134592 134561 80336 XOR\n2 1 80336 78800 134468 XOR\n2 1 134468 134437 77008 XOR\n2 1 77008 3647 121346 XOR\n2 1 121346 121315 95125 XOR\n2 1 97173 95125 121284 XOR\n2 1 121284 121253 93092 XOR\n2 1 93092 38768 91088 XOR\n2 1 91088 84944 107861 XOR\n2 1 107861 107830 3007 XOR\n2 1 82896 77008 131554 XOR\n2 1 131554 131523 78288 XOR\n2 1 3007 3071 72878 XOR\n2 1 3006 3070 72877 XOR\n2 1 3005 3069 72876 XOR\n2 1 3004 3068 72875 XOR\n2 1 3003 3067 72874 XOR\n2 1 3002 3066 72873 XOR\n2 1 3001 3065 72872 XOR\n2 1 3000 3064 72871 XOR\n2 1 2999 3063 72870 XOR\n2 1 2998 3062 72869 XOR\n2 1 2997 3061 72868 XOR\n2 1 2996 3060 72867 XOR\n2 1 2995 3059 72866 XOR\n2 1 2994 3058 72865 XOR\n2 1 2993 3057 72864 XOR\n2 1 2992 3056 72863 XOR\n2 1 2991 3055 72862 XOR\n2 1 2990 3054 72861 XOR\n2 1 2989 3053 72860 XOR\n2 1 2988 3052 72859 XOR\n2 1 2987 3051 72858 XOR\n2 1 2986 3050 72857 XOR\n2 1 2985 3049 72856 XOR\n2 1 2984 3048 72855 XOR\n2 1 2983 3047 72854 XOR\n2 1 2982 3046 72853 XOR\n2 1 2981 3045 72852 XOR\n2 1 2980 3044 72851 XOR\n2 1 2979 3043 72850 XOR\n2 1 2978 3042 72849 XOR\n2 1 2977 3041 72848 XOR\n2 1 2976 3040 72847 XOR\n2 1 72878 72846 72814 AND\n2 1 72877 72845 72813 AND\n2 1 72876 72844 72812 AND\n2 1 72875 72843 72811 AND\n2 1 72874 72842 72810 AND\n2 1 72873 72841 72809 AND\n2 1 72872 72840 72808 AND\n2 1 72871 72839 72807 AND\n2 1 72870 72838 72806 AND\n2 1 72869 72837 72805 AND\n2 1 72868 72836 72804 AND\n2 1 72867 72835 72803 AND\n2 1 72866 72834 72802 AND\n2 1 72865 72833 72801 AND\n2 1 72864 72832 72800 AND\n2 1 72863 72831 72799 AND\n2 1 72862 72830 72798 AND\n2 1 72861 72829 72797 AND\n2 1 72860 72828 72796 AND\n2 1 72859 72827 72795 AND\n2 1 72858 72826 72794 AND\n2 1 72857 72825 72793 AND\n2 1 72856 72824 72792 AND\n2 1 72855 72823 72791 AND\n2 1 72854 72822 72790 AND\n2 1 72853 72821 72789 AND\n2 1 72852 72820 72788 AND\n2 1 72851 72819 72787 AND\n2 1 72850 72818 72786 AND\n2 1 72849 72817 72785 AND\n2 1 72848 72816 72784 AND\n2 1 72847 72815 72783 AND\n2 1 72814 3071 86960 XOR\n2 1 72813 3070 86959 XOR\n2 1 72812 3069 86958 XOR\n2 1 72811 3068 86957 XOR\n2 1 72810 3067 86956 XOR\n2 1 72809 3066 86955 XOR\n2 1 72808 3065 86954 XOR\n2 1 72807 3064 86953 XOR\n2 1 72806 3063 86952 XOR\n2 1 72805 3062 86951 XOR\n2 1 72804 3061 86950 XOR\n2 1 72803 3060 86949 XOR\n2 1 72802 3059 86948 XOR\n2 1 72801 3058 86947 XOR\n2 1 72800 3057 86946 XOR\n2 1 72799 3056 86945 XOR\n2 1 72798 3055 86944 XOR\n2 1 72797 3054 86943 XOR\n2 1 72796 3053 86942 XOR\n2 1 72795 3052 86941 XOR\n2 1 72794 3051 86940 XOR\n2 1 72793 3050 86939 XOR\n2 1 72792 3049 86938 XOR\n2 1 72791 3048 86937 XOR\n2 1 72790 3047 86936 XOR\n2 1 72789 3046 86935 XOR\n2 1 72788 3045 86934 XOR\n2 1 72787 3044 86933 XOR\n2 1 72786 3043 86932 XOR\n2 1 72785 3042 86931 XOR\n2 1 72784 3041 86930 XOR\n2 1 72783 3040 86929 XOR\n2 1 3007 3039 72750 XOR\n2 1 3006 3038 72749 XOR\n2 1 3005 3037 72748 XOR\n2 1 3004 3036 72747 XOR\n2 1 3003 3035 72746 XOR\n2 1 3002 3034 72745 XOR\n2 1 3001 3033 72744 XOR\n",
"2 1 3000 3032 72743 XOR\n2 1 2999 3031 72742 XOR\n2 1 2998 3030 72741 XOR\n2 1 2997 3029 72740 XOR\n2 1 2996 3028 72739 XOR\n2 1 2995 3027 72738 XOR\n2 1 2994 3026 72737 XOR\n2 1 2993 3025 72736 XOR\n2 1 2992 3024 72735 XOR\n2 1 2991 3023 72734 XOR\n2 1 2990 3022 72733 XOR\n2 1 2989 3021 72732 XOR\n2 1 2988 3020 72731 XOR\n2 1 2987 3019 72730 XOR\n2 1 2986 3018 72729 XOR\n2 1 2985 3017 72728 XOR\n2 1 2984 3016 72727 XOR\n2 1 2983 3015 72726 XOR\n2 1 2982 3014 72725 XOR\n2 1 2981 3013 72724 XOR\n2 1 2980 3012 72723 XOR\n2 1 2979 3011 72722 XOR\n2 1 2978 3010 72721 XOR\n2 1 2977 3009 72720 XOR\n2 1 2976 3008 72719 XOR\n2 1 2977 2988 68110 XOR\n2 1 2976 2987 68109 XOR\n2 1 3007 2986 68108 XOR\n2 1 3006 2985 68107 XOR\n2 1 3005 2984 68106 XOR\n2 1 3004 2983 68105 XOR\n2 1 3003 2982 68104 XOR\n2 1 3002 2981 68103 XOR\n2 1 3001 2980 68102 XOR\n2 1 3000 2979 68101 XOR\n2 1 2999 2978 68100 XOR\n2 1 2998 2977 68099 XOR\n2 1 2997 2976 68098 XOR\n2 1 2996 3007 68097 XOR\n2 1 2995 3006 68096 XOR\n2 1 2994 3005 68095 XOR\n2 1 2993 3004 68094 XOR\n2 1 2992 3003 68093 XOR\n2 1 2991 3002 68092 XOR\n2 1 2990 3001 68091 XOR\n2 1 2989 3000 68090 XOR\n2 1 2988 2999 68089 XOR\n2 1 2987 2998 68088 XOR\n2 1 2986 2997 68087 XOR\n2 1 2985 2996 68086 XOR\n2 1 2984 2995 68085 XOR\n2 1 2983 2994 68084 XOR\n2 1 2982 2993 68083 XOR\n2 1 2981 2992 68082 XOR\n2 1 2980 2991 68081 XOR\n2 1 2979 2990 68080 XOR\n2 1 2978 2989 68079 XOR\n2 1 68110 2997 89008 XOR\n2 1 89008 86960 120961 XOR\n2 1 68109 2996 89007 XOR\n2 1 89007 86959 120960 XOR\n2 1 68108 2995 89006 XOR\n2 1 89006 86958 120959 XOR\n2 1 68107 2994 89005 XOR\n2 1 89005 86957 120958 XOR\n2 1 68106 2993 89004 XOR\n2 1 89004 86956 120957 XOR\n2 1 68105 2992 89003 XOR\n2 1 89003 86955 120956 XOR\n2 1 68104 2991 89002 XOR\n2 1 89002 86954 120955 XOR\n2 1 68103 2990 89001 XOR\n2 1 89001 86953 120954 XOR\n2 1 68102 2989 89000 XOR\n2 1 89000 86952 120953 XOR\n2 1 68101 2988 88999 XOR\n2 1 88999 86951 120952 XOR\n2 1 68100 2987 88998 XOR\n2 1 88998 86950 120951 XOR\n2 1 68099 2986 88997 XOR\n2 1 88997 86949 120950 XOR\n2 1 68098 2985 88996 XOR\n2 1 88996 86948 120949 XOR\n2 1 68097 2984 88995 XOR\n2 1 88995 86947 120948 XOR\n2 1 68096 2983 88994 XOR\n2 1 88994 86946 120947 XOR\n2 1 68095 2982 88993 XOR\n2 1 88993 86945 120946 XOR\n2 1 68094 2981 88992 XOR\n2 1 88992 86944 120945 XOR\n2 1 68093 2980 88991 XOR\n2 1 88991 86943 120944 XOR\n2 1 68092 2979 88990 XOR\n2 1 88990 86942 120943 XOR\n2 1 68091 2978 88989 XOR\n2 1 88989 86941 120942 XOR\n2 1 68090 2977 88988 XOR\n2 1 88988 86940 120941 XOR\n2 1 68089 2976 88987 XOR\n2 1 88987 86939 120940 XOR\n2 1 68088 3007 88986 XOR\n2 1 88986 86938 120939 XOR\n2 1 68087 3006 88985 XOR\n2 1 88985 86937 120938 XOR\n2 1 68086 3005 88984 XOR\n2 1 88984 86936 120937 XOR\n2 1 68085 3004 88983 XOR\n2 1 88983 86935 120936 XOR\n2 1 68084 3003 88982 XOR\n2 1 88982 86934 120935 XOR\n2 1 68083 3002 88981 XOR\n2 1 88981 86933 120934 XOR\n2 1 68082 3001 88980 XOR\n2 1 88980 86932 120933 XOR\n2 1 68081 3000 88979 XOR\n2 1 88979 86931 120932 XOR\n2 1 68080 2999 88978 XOR\n2 1 88978 86930 120931 XOR\n2 1 68079 2998 88977 XOR\n2 1 88977 86929 120900 AND\n2 1 88977 86929 84881 XOR\n2 1 120931 120900 84882 XOR\n2 1 88978 120900 38146 XOR\n2 1 86930 120900 38147 XOR\n2 1 38146 38147 38145 AND\n2 1 38145 120900 120901 XOR\n2 1 120932 120901 84883 XOR\n",
"2 1 88979 120901 38149 XOR\n2 1 86931 120901 38150 XOR\n2 1 38149 38150 38148 AND\n2 1 38148 120901 120902 XOR\n2 1 120933 120902 84884 XOR\n2 1 88980 120902 38152 XOR\n2 1 86932 120902 38153 XOR\n2 1 38152 38153 38151 AND\n2 1 38151 120902 120903 XOR\n2 1 120934 120903 84885 XOR\n2 1 88981 120903 38155 XOR\n2 1 86933 120903 38156 XOR\n2 1 38155 38156 38154 AND\n2 1 38154 120903 120904 XOR\n2 1 120935 120904 84886 XOR\n2 1 88982 120904 38158 XOR\n2 1 86934 120904 38159 XOR\n2 1 38158 38159 38157 AND\n2 1 38157 120904 120905 XOR\n2 1 120936 120905 84887 XOR\n2 1 88983 120905 38161 XOR\n2 1 86935 120905 38162 XOR\n2 1 38161 38162 38160 AND\n2 1 38160 120905 120906 XOR\n2 1 120937 120906 84888 XOR\n2 1 88984 120906 38164 XOR\n2 1 86936 120906 38165 XOR\n2 1 38164 38165 38163 AND\n2 1 38163 120906 120907 XOR\n2 1 120938 120907 84889 XOR\n2 1 88985 120907 38167 XOR\n2 1 86937 120907 38168 XOR\n2 1 38167 38168 38166 AND\n2 1 38166 120907 120908 XOR\n2 1 120939 120908 84890 XOR\n2 1 88986 120908 38170 XOR\n2 1 86938 120908 38171 XOR\n2 1 38170 38171 38169 AND\n2 1 38169 120908 120909 XOR\n2 1 120940 120909 84891 XOR\n2 1 88987 120909 38173 XOR\n2 1 86939 120909 38174 XOR\n2 1 38173 38174 38172 AND\n2 1 38172 120909 120910 XOR\n2 1 120941 120910 84892 XOR\n2 1 88988 120910 38176 XOR\n2 1 86940 120910 38177 XOR\n2 1 38176 38177 38175 AND\n2 1 38175 120910 120911 XOR\n2 1 120942 120911 84893 XOR\n2 1 88989 120911 38179 XOR\n2 1 86941 120911 38180 XOR\n2 1 38179 38180 38178 AND\n2 1 38178 120911 120912 XOR\n2 1 120943 120912 84894 XOR\n2 1 88990 120912 38182 XOR\n2 1 86942 120912 38183 XOR\n2 1 38182 38183 38181 AND\n2 1 38181 120912 120913 XOR\n2 1 120944 120913 84895 XOR\n2 1 88991 120913 38185 XOR\n2 1 86943 120913 38186 XOR\n2 1 38185 38186 38184 AND\n2 1 38184 120913 120914 XOR\n2 1 120945 120914 84896 XOR\n2 1 88992 120914 38188 XOR\n2 1 86944 120914 38189 XOR\n2 1 38188 38189 38187 AND\n2 1 38187 120914 120915 XOR\n2 1 120946 120915 84897 XOR\n2 1 88993 120915 38191 XOR\n2 1 86945 120915 38192 XOR\n2 1 38191 38192 38190 AND\n2 1 38190 120915 120916 XOR\n2 1 120947 120916 84898 XOR\n2 1 88994 120916 38194 XOR\n2 1 86946 120916 38195 XOR\n2 1 38194 38195 38193 AND\n2 1 38193 120916 120917 XOR\n2 1 120948 120917 84899 XOR\n2 1 88995 120917 38197 XOR\n2 1 86947 120917 38198 XOR\n2 1 38197 38198 38196 AND\n2 1 38196 120917 120918 XOR\n2 1 120949 120918 84900 XOR\n2 1 88996 120918 38200 XOR\n2 1 86948 120918 38201 XOR\n2 1 38200 38201 38199 AND\n2 1 38199 120918 120919 XOR\n2 1 120950 120919 84901 XOR\n2 1 88997 120919 38203 XOR\n2 1 86949 120919 38204 XOR\n2 1 38203 38204 38202 AND\n2 1 38202 120919 120920 XOR\n2 1 120951 120920 84902 XOR\n2 1 88998 120920 38206 XOR\n2 1 86950 120920 38207 XOR\n2 1 38206 38207 38205 AND\n2 1 38205 120920 120921 XOR\n2 1 120952 120921 84903 XOR\n2 1 88999 120921 38209 XOR\n2 1 86951 120921 38210 XOR\n2 1 38209 38210 38208 AND\n2 1 38208 120921 120922 XOR\n2 1 120953 120922 84904 XOR\n2 1 89000 120922 38212 XOR\n2 1 86952 120922 38213 XOR\n2 1 38212 38213 38211 AND\n2 1 38211 120922 120923 XOR\n2 1 120954 120923 84905 XOR\n2 1 89001 120923 38215 XOR\n2 1 86953 120923 38216 XOR\n2 1 38215 38216 38214 AND\n2 1 38214 120923 120924 XOR\n2 1 120955 120924 84906 XOR\n2 1 89002 120924 38218 XOR\n2 1 86954 120924 38219 XOR\n2 1 38218 38219 38217 AND\n2 1 38217 120924 120925 XOR\n2 1 120956 120925 84907 XOR\n2 1 89003 120925 38221 XOR\n2 1 86955 120925 38222 XOR\n2 1 38221 38222 38220 AND\n2 1 38220 120925 120926 XOR\n2 1 120957 120926 84908 XOR\n2 1 89004 120926 38224 XOR\n2 1 86956 120926 38225 XOR\n2 1 38224 38225 38223 AND\n",
"2 1 38223 120926 120927 XOR\n2 1 120958 120927 84909 XOR\n2 1 89005 120927 38227 XOR\n2 1 86957 120927 38228 XOR\n2 1 38227 38228 38226 AND\n2 1 38226 120927 120928 XOR\n2 1 120959 120928 84910 XOR\n2 1 89006 120928 38230 XOR\n2 1 86958 120928 38231 XOR\n2 1 38230 38231 38229 AND\n2 1 38229 120928 120929 XOR\n2 1 120960 120929 84911 XOR\n2 1 89007 120929 38233 XOR\n2 1 86959 120929 38234 XOR\n2 1 38233 38234 38232 AND\n2 1 38232 120929 120930 XOR\n2 1 120961 120930 84912 XOR\n2 1 3104 91057 107738 AND\n2 1 3104 91057 3488 XOR\n2 1 3105 91058 107769 XOR\n2 1 3106 91059 107770 XOR\n2 1 3107 91060 107771 XOR\n2 1 3108 91061 107772 XOR\n2 1 3109 91062 107773 XOR\n2 1 3110 91063 107774 XOR\n2 1 3111 91064 107775 XOR\n2 1 3112 91065 107776 XOR\n2 1 3113 91066 107777 XOR\n2 1 65551 3488 65519 AND\n2 1 65519 3552 99158 XOR\n2 1 3488 3520 65487 XOR\n2 1 3114 91067 107778 XOR\n2 1 3115 91068 107779 XOR\n2 1 3116 91069 107780 XOR\n2 1 3117 91070 107781 XOR\n2 1 3118 91071 107782 XOR\n2 1 3119 91072 107783 XOR\n2 1 3120 91073 107784 XOR\n2 1 3121 91074 107785 XOR\n2 1 3122 91075 107786 XOR\n2 1 3123 91076 107787 XOR\n2 1 3124 91077 107788 XOR\n2 1 3125 91078 107789 XOR\n2 1 3126 91079 107790 XOR\n2 1 3127 91080 107791 XOR\n2 1 3128 91081 107792 XOR\n2 1 3129 91082 107793 XOR\n2 1 3130 91083 107794 XOR\n2 1 3131 91084 107795 XOR\n2 1 3132 91085 107796 XOR\n2 1 3133 91086 107797 XOR\n2 1 3134 91087 107798 XOR\n2 1 3135 91088 107799 XOR\n2 1 107769 107738 3489 XOR\n2 1 65552 3489 65520 AND\n2 1 65520 3553 99159 XOR\n2 1 3489 3521 65488 XOR\n2 1 3105 107738 15517 XOR\n2 1 91058 107738 15518 XOR\n2 1 15517 15518 15516 AND\n2 1 15516 107738 107739 XOR\n2 1 107770 107739 3490 XOR\n2 1 65553 3490 65521 AND\n2 1 65521 3554 99160 XOR\n2 1 3490 3522 65489 XOR\n2 1 3106 107739 15520 XOR\n2 1 91059 107739 15521 XOR\n2 1 15520 15521 15519 AND\n2 1 15519 107739 107740 XOR\n2 1 3107 107740 15523 XOR\n2 1 107771 107740 3491 XOR\n2 1 65554 3491 65522 AND\n2 1 65522 3555 99161 XOR\n2 1 3491 3523 65490 XOR\n2 1 91060 107740 15524 XOR\n2 1 15523 15524 15522 AND\n2 1 15522 107740 107741 XOR\n2 1 91061 107741 15527 XOR\n2 1 107772 107741 3492 XOR\n2 1 65555 3492 65523 AND\n2 1 65523 3556 99162 XOR\n2 1 3492 3524 65491 XOR\n2 1 3108 107741 15526 XOR\n2 1 15526 15527 15525 AND\n2 1 15525 107741 107742 XOR\n2 1 3109 107742 15529 XOR\n2 1 107773 107742 3493 XOR\n2 1 65556 3493 65524 AND\n2 1 65524 3557 99163 XOR\n2 1 3493 3525 65492 XOR\n2 1 91062 107742 15530 XOR\n2 1 15529 15530 15528 AND\n2 1 15528 107742 107743 XOR\n2 1 91063 107743 15533 XOR\n2 1 107774 107743 3494 XOR\n2 1 65557 3494 65525 AND\n2 1 65525 3558 99164 XOR\n2 1 3494 3526 65493 XOR\n2 1 3110 107743 15532 XOR\n2 1 15532 15533 15531 AND\n2 1 15531 107743 107744 XOR\n2 1 3111 107744 15535 XOR\n2 1 107775 107744 3495 XOR\n2 1 65558 3495 65526 AND\n2 1 65526 3559 99165 XOR\n2 1 3495 3527 65494 XOR\n2 1 91064 107744 15536 XOR\n2 1 15535 15536 15534 AND\n2 1 15534 107744 107745 XOR\n2 1 91065 107745 15539 XOR\n2 1 107776 107745 3496 XOR\n2 1 65559 3496 65527 AND\n2 1 65527 3560 99166 XOR\n2 1 3496 3528 65495 XOR\n2 1 3112 107745 15538 XOR\n2 1 15538 15539 15537 AND\n2 1 15537 107745 107746 XOR\n2 1 3113 107746 15541 XOR\n2 1 107777 107746 3497 XOR\n2 1 65560 3497 65528 AND\n2 1 65528 3561 99167 XOR\n2 1 3497 3529 65496 XOR\n2 1 91066 107746 15542 XOR\n2 1 15541 15542 15540 AND\n2 1 15540 107746 107747 XOR\n2 1 91067 107747 15545 XOR\n2 1 107778 107747 3498 XOR\n2 1 65561 3498 65529 AND\n",
"2 1 65529 3562 99168 XOR\n2 1 3498 3530 65497 XOR\n2 1 3114 107747 15544 XOR\n2 1 15544 15545 15543 AND\n2 1 15543 107747 107748 XOR\n2 1 3115 107748 15547 XOR\n2 1 107779 107748 3499 XOR\n2 1 65562 3499 65530 AND\n2 1 65530 3563 99169 XOR\n2 1 3499 3531 65498 XOR\n2 1 91068 107748 15548 XOR\n2 1 15547 15548 15546 AND\n2 1 15546 107748 107749 XOR\n2 1 91069 107749 15551 XOR\n2 1 107780 107749 3500 XOR\n2 1 65563 3500 65531 AND\n2 1 65531 3564 99170 XOR\n2 1 3500 3532 65499 XOR\n2 1 3116 107749 15550 XOR\n2 1 15550 15551 15549 AND\n2 1 15549 107749 107750 XOR\n2 1 3117 107750 15553 XOR\n2 1 107781 107750 3501 XOR\n2 1 65564 3501 65532 AND\n2 1 65532 3565 99171 XOR\n2 1 3501 3533 65500 XOR\n2 1 91070 107750 15554 XOR\n2 1 15553 15554 15552 AND\n2 1 15552 107750 107751 XOR\n2 1 91071 107751 15557 XOR\n2 1 107782 107751 3502 XOR\n2 1 65565 3502 65533 AND\n2 1 65533 3566 99172 XOR\n2 1 3502 3534 65501 XOR\n2 1 3118 107751 15556 XOR\n2 1 15556 15557 15555 AND\n2 1 15555 107751 107752 XOR\n2 1 3119 107752 15559 XOR\n2 1 91072 107752 15560 XOR\n2 1 107783 107752 3503 XOR\n2 1 65566 3503 65534 AND\n2 1 65534 3567 99173 XOR\n2 1 3503 3535 65502 XOR\n2 1 15559 15560 15558 AND\n2 1 15558 107752 107753 XOR\n2 1 3120 107753 15562 XOR\n2 1 91073 107753 15563 XOR\n2 1 15562 15563 15561 AND\n2 1 107784 107753 3504 XOR\n2 1 15561 107753 107754 XOR\n2 1 3121 107754 15565 XOR\n2 1 91074 107754 15566 XOR\n2 1 15565 15566 15564 AND\n2 1 15564 107754 107755 XOR\n2 1 107786 107755 3506 XOR\n2 1 107785 107754 3505 XOR\n2 1 3122 107755 15568 XOR\n2 1 91075 107755 15569 XOR\n2 1 15568 15569 15567 AND\n2 1 15567 107755 107756 XOR\n2 1 3123 107756 15571 XOR\n2 1 91076 107756 15572 XOR\n2 1 15571 15572 15570 AND\n2 1 107787 107756 3507 XOR\n2 1 15570 107756 107757 XOR\n2 1 91077 107757 15575 XOR\n2 1 107788 107757 3508 XOR\n2 1 3124 107757 15574 XOR\n2 1 15574 15575 15573 AND\n2 1 15573 107757 107758 XOR\n2 1 91078 107758 15578 XOR\n2 1 107789 107758 3509 XOR\n2 1 3125 107758 15577 XOR\n2 1 15577 15578 15576 AND\n2 1 15576 107758 107759 XOR\n2 1 107790 107759 3510 XOR\n2 1 3126 107759 15580 XOR\n2 1 91079 107759 15581 XOR\n2 1 15580 15581 15579 AND\n2 1 15579 107759 107760 XOR\n2 1 107791 107760 3511 XOR\n2 1 3127 107760 15583 XOR\n2 1 91080 107760 15584 XOR\n2 1 15583 15584 15582 AND\n2 1 15582 107760 107761 XOR\n2 1 91081 107761 15587 XOR\n2 1 107792 107761 3512 XOR\n2 1 3128 107761 15586 XOR\n2 1 15586 15587 15585 AND\n2 1 15585 107761 107762 XOR\n2 1 3129 107762 15589 XOR\n2 1 91082 107762 15590 XOR\n2 1 15589 15590 15588 AND\n2 1 15588 107762 107763 XOR\n2 1 3130 107763 15592 XOR\n2 1 107794 107763 3514 XOR\n2 1 91083 107763 15593 XOR\n2 1 15592 15593 15591 AND\n2 1 15591 107763 107764 XOR\n2 1 107795 107764 3515 XOR\n2 1 3131 107764 15595 XOR\n2 1 91084 107764 15596 XOR\n2 1 15595 15596 15594 AND\n2 1 15594 107764 107765 XOR\n2 1 107796 107765 3516 XOR\n2 1 91085 107765 15599 XOR\n2 1 3132 107765 15598 XOR\n2 1 15598 15599 15597 AND\n2 1 15597 107765 107766 XOR\n2 1 107797 107766 3517 XOR\n2 1 91086 107766 15602 XOR\n2 1 3133 107766 15601 XOR\n2 1 15601 15602 15600 AND\n2 1 15600 107766 107767 XOR\n2 1 107793 107762 3513 XOR\n2 1 107798 107767 3518 XOR\n2 1 3134 107767 15604 XOR\n2 1 91087 107767 15605 XOR\n2 1 15604 15605 15603 AND\n2 1 15603 107767 107768 XOR\n2 1 107799 107768 3519 XOR\n2 1 65582 3519 65550 AND\n2 1 65581 3518 65549 AND\n2 1 65580 3517 65548 AND\n2 1 65579 3516 65547 AND\n2 1 65578 3515 65546 AND\n2 1 65577 3514 65545 AND\n2 1 65576 3513 65544 AND\n",
"2 1 65575 3512 65543 AND\n2 1 65574 3511 65542 AND\n2 1 65573 3510 65541 AND\n2 1 65572 3509 65540 AND\n2 1 65571 3508 65539 AND\n2 1 65570 3507 65538 AND\n2 1 65569 3506 65537 AND\n2 1 65568 3505 65536 AND\n2 1 65567 3504 65535 AND\n2 1 65550 3583 99189 XOR\n2 1 65549 3582 99188 XOR\n2 1 65548 3581 99187 XOR\n2 1 65547 3580 99186 XOR\n2 1 65546 3579 99185 XOR\n2 1 65545 3578 99184 XOR\n2 1 65544 3577 99183 XOR\n2 1 65543 3576 99182 XOR\n2 1 65542 3575 99181 XOR\n2 1 65541 3574 99180 XOR\n2 1 65540 3573 99179 XOR\n2 1 65539 3572 99178 XOR\n2 1 65538 3571 99177 XOR\n2 1 65537 3570 99176 XOR\n2 1 65536 3569 99175 XOR\n2 1 65535 3568 99174 XOR\n2 1 3519 3551 65518 XOR\n2 1 3518 3550 65517 XOR\n2 1 3517 3549 65516 XOR\n2 1 3516 3548 65515 XOR\n2 1 3515 3547 65514 XOR\n2 1 3514 3546 65513 XOR\n2 1 3513 3545 65512 XOR\n2 1 3512 3544 65511 XOR\n2 1 3511 3543 65510 XOR\n2 1 3510 3542 65509 XOR\n2 1 3509 3541 65508 XOR\n2 1 3508 3540 65507 XOR\n2 1 3507 3539 65506 XOR\n2 1 3506 3538 65505 XOR\n2 1 3505 3537 65504 XOR\n2 1 3504 3536 65503 XOR\n2 1 3493 3498 62190 XOR\n2 1 3492 3497 62189 XOR\n2 1 3491 3496 62188 XOR\n2 1 3490 3495 62187 XOR\n2 1 3489 3494 62186 XOR\n2 1 3488 3493 62185 XOR\n2 1 3519 3492 62184 XOR\n2 1 3518 3491 62183 XOR\n2 1 3517 3490 62182 XOR\n2 1 3516 3489 62181 XOR\n2 1 3515 3488 62180 XOR\n2 1 3514 3519 62179 XOR\n2 1 3513 3518 62178 XOR\n2 1 3512 3517 62177 XOR\n2 1 3511 3516 62176 XOR\n2 1 3510 3515 62175 XOR\n2 1 3509 3514 62174 XOR\n2 1 3508 3513 62173 XOR\n2 1 3507 3512 62172 XOR\n2 1 3506 3511 62171 XOR\n2 1 3505 3510 62170 XOR\n2 1 3504 3509 62169 XOR\n2 1 3503 3508 62168 XOR\n2 1 3502 3507 62167 XOR\n2 1 3501 3506 62166 XOR\n2 1 3500 3505 62165 XOR\n2 1 3499 3504 62164 XOR\n2 1 3498 3503 62163 XOR\n2 1 3497 3502 62162 XOR\n2 1 3496 3501 62161 XOR\n2 1 3495 3500 62160 XOR\n2 1 3494 3499 62159 XOR\n2 1 62190 3512 101237 XOR\n2 1 101237 99189 121160 XOR\n2 1 62189 3511 101236 XOR\n2 1 101236 99188 121159 XOR\n2 1 62188 3510 101235 XOR\n2 1 101235 99187 121158 XOR\n2 1 62187 3509 101234 XOR\n2 1 101234 99186 121157 XOR\n2 1 62186 3508 101233 XOR\n2 1 101233 99185 121156 XOR\n2 1 62185 3507 101232 XOR\n2 1 101232 99184 121155 XOR\n2 1 62184 3506 101231 XOR\n2 1 101231 99183 121154 XOR\n2 1 62183 3505 101230 XOR\n2 1 101230 99182 121153 XOR\n2 1 62182 3504 101229 XOR\n2 1 101229 99181 121152 XOR\n2 1 62181 3503 101228 XOR\n2 1 101228 99180 121151 XOR\n2 1 62180 3502 101227 XOR\n2 1 101227 99179 121150 XOR\n2 1 62179 3501 101226 XOR\n2 1 101226 99178 121149 XOR\n2 1 62178 3500 101225 XOR\n2 1 101225 99177 121148 XOR\n2 1 62177 3499 101224 XOR\n2 1 101224 99176 121147 XOR\n2 1 62176 3498 101223 XOR\n2 1 101223 99175 121146 XOR\n2 1 62175 3497 101222 XOR\n2 1 101222 99174 121145 XOR\n2 1 62174 3496 101221 XOR\n2 1 101221 99173 121144 XOR\n2 1 62173 3495 101220 XOR\n2 1 101220 99172 121143 XOR\n2 1 62172 3494 101219 XOR\n2 1 101219 99171 121142 XOR\n2 1 62171 3493 101218 XOR\n2 1 101218 99170 121141 XOR\n2 1 62170 3492 101217 XOR\n2 1 101217 99169 121140 XOR\n2 1 62169 3491 101216 XOR\n2 1 101216 99168 121139 XOR\n2 1 62168 3490 101215 XOR\n2 1 101215 99167 121138 XOR\n2 1 62167 3489 101214 XOR\n2 1 101214 99166 121137 XOR\n2 1 62166 3488 101213 XOR\n2 1 101213 99165 121136 XOR\n2 1 62165 3519 101212 XOR\n2 1 101212 99164 121135 XOR\n2 1 62164 3518 101211 XOR\n2 1 101211 99163 121134 XOR\n2 1 62163 3517 101210 XOR\n",
"2 1 101210 99162 121133 XOR\n2 1 62162 3516 101209 XOR\n2 1 101209 99161 121132 XOR\n2 1 62161 3515 101208 XOR\n2 1 101208 99160 121131 XOR\n2 1 62160 3514 101207 XOR\n2 1 101207 99159 121130 XOR\n2 1 62159 3513 101206 XOR\n2 1 101206 99158 121099 AND\n2 1 101206 99158 97110 XOR\n2 1 97110 95062 120975 AND\n2 1 97110 95062 91025 XOR\n2 1 95063 120975 38318 XOR\n2 1 121130 121099 97111 XOR\n2 1 97111 95063 121006 XOR\n2 1 121006 120975 93030 XOR\n1 1 93030 91026 INV\n2 1 97111 120975 38317 XOR\n2 1 38317 38318 38316 AND\n2 1 38316 120975 120976 XOR\n2 1 95064 120976 38321 XOR\n2 1 101207 121099 38497 XOR\n2 1 99159 121099 38498 XOR\n2 1 38497 38498 38496 AND\n2 1 38496 121099 121100 XOR\n2 1 121131 121100 97112 XOR\n2 1 97112 95064 121007 XOR\n2 1 121007 120976 93031 XOR\n2 1 93031 93030 91027 XOR\n2 1 91027 93030 38235 AND\n2 1 38235 93030 120962 XOR\n1 1 120962 38238 INV\n2 1 97112 120976 38320 XOR\n2 1 38320 38321 38319 AND\n2 1 38319 120976 120977 XOR\n2 1 95065 120977 38324 XOR\n2 1 101208 121100 38500 XOR\n2 1 99160 121100 38501 XOR\n2 1 38500 38501 38499 AND\n2 1 38499 121100 121101 XOR\n2 1 121132 121101 97113 XOR\n2 1 97113 95065 121008 XOR\n2 1 121008 120977 93032 XOR\n1 1 93032 38304 INV\n2 1 38304 120962 91028 XOR\n2 1 93032 120962 38237 XOR\n2 1 38237 38238 38236 AND\n2 1 38236 120962 38240 XOR\n2 1 97113 120977 38323 XOR\n2 1 38323 38324 38322 AND\n2 1 38322 120977 120978 XOR\n2 1 95066 120978 38327 XOR\n2 1 101209 121101 38503 XOR\n2 1 99161 121101 38504 XOR\n2 1 38503 38504 38502 AND\n2 1 38502 121101 121102 XOR\n2 1 121133 121102 97114 XOR\n2 1 97114 95066 121009 XOR\n2 1 121009 120978 93033 XOR\n2 1 93033 38240 91029 XOR\n2 1 91029 38240 38239 AND\n2 1 38239 38240 120963 XOR\n1 1 120963 38243 INV\n2 1 97114 120978 38326 XOR\n2 1 38326 38327 38325 AND\n2 1 38325 120978 120979 XOR\n2 1 95067 120979 38330 XOR\n2 1 101210 121102 38506 XOR\n2 1 99162 121102 38507 XOR\n2 1 38506 38507 38505 AND\n2 1 38505 121102 121103 XOR\n2 1 121134 121103 97115 XOR\n2 1 97115 95067 121010 XOR\n2 1 121010 120979 93034 XOR\n1 1 93034 38305 INV\n2 1 38305 120963 91030 XOR\n2 1 93034 120963 38242 XOR\n2 1 38242 38243 38241 AND\n2 1 38241 120963 38245 XOR\n2 1 97115 120979 38329 XOR\n2 1 38329 38330 38328 AND\n2 1 38328 120979 120980 XOR\n2 1 95068 120980 38333 XOR\n2 1 101211 121103 38509 XOR\n2 1 99163 121103 38510 XOR\n2 1 38509 38510 38508 AND\n2 1 38508 121103 121104 XOR\n2 1 121135 121104 97116 XOR\n2 1 97116 95068 121011 XOR\n2 1 121011 120980 93035 XOR\n2 1 93035 38245 91031 XOR\n2 1 91031 38245 38244 AND\n2 1 38244 38245 120964 XOR\n1 1 120964 38248 INV\n2 1 97116 120980 38332 XOR\n2 1 38332 38333 38331 AND\n2 1 38331 120980 120981 XOR\n2 1 95069 120981 38336 XOR\n2 1 101212 121104 38512 XOR\n2 1 99164 121104 38513 XOR\n2 1 38512 38513 38511 AND\n2 1 38511 121104 121105 XOR\n2 1 121136 121105 97117 XOR\n2 1 97117 95069 121012 XOR\n2 1 121012 120981 93036 XOR\n1 1 93036 38306 INV\n2 1 38306 120964 91032 XOR\n2 1 93036 120964 38247 XOR\n2 1 38247 38248 38246 AND\n2 1 38246 120964 38250 XOR\n2 1 97117 120981 38335 XOR\n2 1 38335 38336 38334 AND\n2 1 38334 120981 120982 XOR\n2 1 95070 120982 38339 XOR\n2 1 101213 121105 38515 XOR\n2 1 99165 121105 38516 XOR\n2 1 38515 38516 38514 AND\n2 1 38514 121105 121106 XOR\n2 1 121137 121106 97118 XOR\n2 1 97118 95070 121013 XOR\n2 1 121013 120982 93037 XOR\n2 1 93037 38250 91033 XOR\n2 1 91033 38250 38249 AND\n2 1 38249 38250 38252 XOR\n2 1 97118 120982 38338 XOR\n2 1 38338 38339 38337 AND\n2 1 38337 120982 120983 XOR\n2 1 95071 120983 38342 XOR\n",
"2 1 101214 121106 38518 XOR\n2 1 99166 121106 38519 XOR\n2 1 38518 38519 38517 AND\n2 1 38517 121106 121107 XOR\n2 1 121138 121107 97119 XOR\n2 1 97119 95071 121014 XOR\n2 1 121014 120983 93038 XOR\n2 1 93038 38252 91034 XOR\n2 1 91034 38252 38251 AND\n2 1 38251 38252 120965 XOR\n1 1 120965 38255 INV\n2 1 97119 120983 38341 XOR\n2 1 38341 38342 38340 AND\n2 1 38340 120983 120984 XOR\n2 1 95072 120984 38345 XOR\n2 1 101215 121107 38521 XOR\n2 1 99167 121107 38522 XOR\n2 1 38521 38522 38520 AND\n2 1 38520 121107 121108 XOR\n2 1 121139 121108 97120 XOR\n2 1 97120 95072 121015 XOR\n2 1 121015 120984 93039 XOR\n1 1 93039 38307 INV\n2 1 38307 120965 91035 XOR\n2 1 93039 120965 38254 XOR\n2 1 38254 38255 38253 AND\n2 1 38253 120965 38257 XOR\n2 1 97120 120984 38344 XOR\n2 1 38344 38345 38343 AND\n2 1 38343 120984 120985 XOR\n2 1 95073 120985 38348 XOR\n2 1 101216 121108 38524 XOR\n2 1 99168 121108 38525 XOR\n2 1 38524 38525 38523 AND\n2 1 38523 121108 121109 XOR\n2 1 121140 121109 97121 XOR\n2 1 97121 95073 121016 XOR\n2 1 121016 120985 93040 XOR\n2 1 93040 38257 91036 XOR\n2 1 91036 38257 38256 AND\n2 1 38256 38257 38259 XOR\n2 1 97121 120985 38347 XOR\n2 1 38347 38348 38346 AND\n2 1 38346 120985 120986 XOR\n2 1 95074 120986 38351 XOR\n2 1 101217 121109 38527 XOR\n2 1 99169 121109 38528 XOR\n2 1 38527 38528 38526 AND\n2 1 38526 121109 121110 XOR\n2 1 121141 121110 97122 XOR\n2 1 97122 95074 121017 XOR\n2 1 121017 120986 93041 XOR\n2 1 93041 38259 91037 XOR\n2 1 91037 38259 38258 AND\n2 1 38258 38259 38261 XOR\n2 1 97122 120986 38350 XOR\n2 1 38350 38351 38349 AND\n2 1 38349 120986 120987 XOR\n2 1 95075 120987 38354 XOR\n2 1 101218 121110 38530 XOR\n2 1 99170 121110 38531 XOR\n2 1 38530 38531 38529 AND\n2 1 38529 121110 121111 XOR\n2 1 121142 121111 97123 XOR\n2 1 97123 95075 121018 XOR\n2 1 121018 120987 93042 XOR\n2 1 93042 38261 91038 XOR\n2 1 91038 38261 38260 AND\n2 1 38260 38261 38263 XOR\n2 1 97123 120987 38353 XOR\n2 1 38353 38354 38352 AND\n2 1 38352 120987 120988 XOR\n2 1 95076 120988 38357 XOR\n2 1 101219 121111 38533 XOR\n2 1 99171 121111 38534 XOR\n2 1 38533 38534 38532 AND\n2 1 38532 121111 121112 XOR\n2 1 121143 121112 97124 XOR\n2 1 97124 95076 121019 XOR\n2 1 121019 120988 93043 XOR\n2 1 93043 38263 91039 XOR\n2 1 91039 38263 38262 AND\n2 1 38262 38263 120966 XOR\n1 1 120966 38266 INV\n2 1 97124 120988 38356 XOR\n2 1 38356 38357 38355 AND\n2 1 38355 120988 120989 XOR\n2 1 95077 120989 38360 XOR\n2 1 101220 121112 38536 XOR\n2 1 99172 121112 38537 XOR\n2 1 38536 38537 38535 AND\n2 1 38535 121112 121113 XOR\n2 1 121144 121113 97125 XOR\n2 1 97125 95077 121020 XOR\n2 1 121020 120989 93044 XOR\n1 1 93044 38308 INV\n2 1 38308 120966 91040 XOR\n2 1 93044 120966 38265 XOR\n2 1 38265 38266 38264 AND\n2 1 38264 120966 38268 XOR\n2 1 97125 120989 38359 XOR\n2 1 38359 38360 38358 AND\n2 1 38358 120989 120990 XOR\n2 1 95078 120990 38363 XOR\n2 1 101221 121113 38539 XOR\n2 1 99173 121113 38540 XOR\n2 1 38539 38540 38538 AND\n2 1 38538 121113 121114 XOR\n2 1 121145 121114 97126 XOR\n2 1 97126 95078 121021 XOR\n2 1 121021 120990 93045 XOR\n2 1 93045 38268 91041 XOR\n2 1 91041 38268 38267 AND\n2 1 38267 38268 38270 XOR\n2 1 97126 120990 38362 XOR\n2 1 38362 38363 38361 AND\n2 1 38361 120990 120991 XOR\n2 1 95079 120991 38366 XOR\n2 1 101222 121114 38542 XOR\n2 1 99174 121114 38543 XOR\n2 1 38542 38543 38541 AND\n2 1 38541 121114 121115 XOR\n2 1 121146 121115 97127 XOR\n2 1 97127 95079 121022 XOR\n2 1 121022 120991 93046 XOR\n2 1 93046 38270 91042 XOR\n2 1 91042 38270 38269 AND\n2 1 38269 38270 120967 XOR\n",
"1 1 120967 38273 INV\n2 1 97127 120991 38365 XOR\n2 1 38365 38366 38364 AND\n2 1 38364 120991 120992 XOR\n2 1 95080 120992 38369 XOR\n2 1 101223 121115 38545 XOR\n2 1 99175 121115 38546 XOR\n2 1 38545 38546 38544 AND\n2 1 38544 121115 121116 XOR\n2 1 121147 121116 97128 XOR\n2 1 97128 95080 121023 XOR\n2 1 121023 120992 93047 XOR\n1 1 93047 38309 INV\n2 1 38309 120967 91043 XOR\n2 1 93047 120967 38272 XOR\n2 1 38272 38273 38271 AND\n2 1 38271 120967 38275 XOR\n2 1 97128 120992 38368 XOR\n2 1 38368 38369 38367 AND\n2 1 38367 120992 120993 XOR\n2 1 95081 120993 38372 XOR\n2 1 101224 121116 38548 XOR\n2 1 99176 121116 38549 XOR\n2 1 38548 38549 38547 AND\n2 1 38547 121116 121117 XOR\n2 1 121148 121117 97129 XOR\n2 1 97129 95081 121024 XOR\n2 1 121024 120993 93048 XOR\n2 1 93048 38275 91044 XOR\n2 1 91044 38275 38274 AND\n2 1 38274 38275 120968 XOR\n1 1 120968 38278 INV\n2 1 97129 120993 38371 XOR\n2 1 38371 38372 38370 AND\n2 1 38370 120993 120994 XOR\n2 1 95082 120994 38375 XOR\n2 1 101225 121117 38551 XOR\n2 1 99177 121117 38552 XOR\n2 1 38551 38552 38550 AND\n2 1 38550 121117 121118 XOR\n2 1 121149 121118 97130 XOR\n2 1 97130 95082 121025 XOR\n2 1 121025 120994 93049 XOR\n1 1 93049 38310 INV\n2 1 38310 120968 91045 XOR\n2 1 93049 120968 38277 XOR\n2 1 38277 38278 38276 AND\n2 1 38276 120968 120969 XOR\n1 1 120969 38281 INV\n2 1 97130 120994 38374 XOR\n2 1 38374 38375 38373 AND\n2 1 38373 120994 120995 XOR\n2 1 95083 120995 38378 XOR\n2 1 101226 121118 38554 XOR\n2 1 99178 121118 38555 XOR\n2 1 38554 38555 38553 AND\n2 1 38553 121118 121119 XOR\n2 1 121150 121119 97131 XOR\n2 1 97131 95083 121026 XOR\n2 1 121026 120995 93050 XOR\n1 1 93050 38311 INV\n2 1 38311 120969 91046 XOR\n2 1 93050 120969 38280 XOR\n2 1 38280 38281 38279 AND\n2 1 38279 120969 120970 XOR\n1 1 120970 38284 INV\n2 1 97131 120995 38377 XOR\n2 1 38377 38378 38376 AND\n2 1 38376 120995 120996 XOR\n2 1 95084 120996 38381 XOR\n2 1 101227 121119 38557 XOR\n2 1 99179 121119 38558 XOR\n2 1 38557 38558 38556 AND\n2 1 38556 121119 121120 XOR\n2 1 121151 121120 97132 XOR\n2 1 97132 95084 121027 XOR\n2 1 121027 120996 93051 XOR\n1 1 93051 38312 INV\n2 1 38312 120970 91047 XOR\n2 1 93051 120970 38283 XOR\n2 1 38283 38284 38282 AND\n2 1 38282 120970 38286 XOR\n2 1 97132 120996 38380 XOR\n2 1 38380 38381 38379 AND\n2 1 38379 120996 120997 XOR\n2 1 95085 120997 38384 XOR\n2 1 101228 121120 38560 XOR\n2 1 99180 121120 38561 XOR\n2 1 38560 38561 38559 AND\n2 1 38559 121120 121121 XOR\n2 1 121152 121121 97133 XOR\n2 1 97133 95085 121028 XOR\n2 1 121028 120997 93052 XOR\n2 1 93052 38286 91048 XOR\n2 1 91048 38286 38285 AND\n2 1 38285 38286 38288 XOR\n2 1 97133 120997 38383 XOR\n2 1 38383 38384 38382 AND\n2 1 38382 120997 120998 XOR\n2 1 95086 120998 38387 XOR\n2 1 101229 121121 38563 XOR\n2 1 99181 121121 38564 XOR\n2 1 38563 38564 38562 AND\n2 1 38562 121121 121122 XOR\n2 1 121153 121122 97134 XOR\n2 1 97134 95086 121029 XOR\n2 1 121029 120998 93053 XOR\n2 1 93053 38288 91049 XOR\n2 1 91049 38288 38287 AND\n2 1 38287 38288 120971 XOR\n1 1 120971 38291 INV\n2 1 97134 120998 38386 XOR\n2 1 38386 38387 38385 AND\n2 1 38385 120998 120999 XOR\n2 1 95087 120999 38390 XOR\n2 1 101230 121122 38566 XOR\n2 1 99182 121122 38567 XOR\n2 1 38566 38567 38565 AND\n2 1 38565 121122 121123 XOR\n2 1 121154 121123 97135 XOR\n2 1 97135 95087 121030 XOR\n2 1 121030 120999 93054 XOR\n1 1 93054 38313 INV\n2 1 38313 120971 91050 XOR\n2 1 93054 120971 38290 XOR\n2 1 38290 38291 38289 AND\n2 1 38289 120971 38293 XOR\n2 1 97135 120999 38389 XOR\n",
"2 1 38389 38390 38388 AND\n2 1 38388 120999 121000 XOR\n2 1 95088 121000 38393 XOR\n2 1 101231 121123 38569 XOR\n2 1 99183 121123 38570 XOR\n2 1 38569 38570 38568 AND\n2 1 38568 121123 121124 XOR\n2 1 121155 121124 97136 XOR\n2 1 97136 95088 121031 XOR\n2 1 121031 121000 93055 XOR\n2 1 93055 38293 91051 XOR\n2 1 91051 38293 38292 AND\n2 1 38292 38293 120972 XOR\n1 1 120972 38296 INV\n2 1 97136 121000 38392 XOR\n2 1 38392 38393 38391 AND\n2 1 38391 121000 121001 XOR\n2 1 95089 121001 38396 XOR\n2 1 101232 121124 38572 XOR\n2 1 99184 121124 38573 XOR\n2 1 38572 38573 38571 AND\n2 1 38571 121124 121125 XOR\n2 1 121156 121125 97137 XOR\n2 1 97137 95089 121032 XOR\n2 1 121032 121001 93056 XOR\n1 1 93056 38314 INV\n2 1 38314 120972 91052 XOR\n2 1 93056 120972 38295 XOR\n2 1 38295 38296 38294 AND\n2 1 38294 120972 38298 XOR\n2 1 97137 121001 38395 XOR\n2 1 38395 38396 38394 AND\n2 1 38394 121001 121002 XOR\n2 1 95090 121002 38399 XOR\n2 1 101233 121125 38575 XOR\n2 1 99185 121125 38576 XOR\n2 1 38575 38576 38574 AND\n2 1 38574 121125 121126 XOR\n2 1 121157 121126 97138 XOR\n2 1 97138 95090 121033 XOR\n2 1 121033 121002 93057 XOR\n2 1 93057 38298 91053 XOR\n2 1 91053 38298 38297 AND\n2 1 38297 38298 38300 XOR\n2 1 97138 121002 38398 XOR\n2 1 38398 38399 38397 AND\n2 1 38397 121002 121003 XOR\n2 1 95091 121003 38402 XOR\n2 1 101234 121126 38578 XOR\n2 1 99186 121126 38579 XOR\n2 1 38578 38579 38577 AND\n2 1 38577 121126 121127 XOR\n2 1 121158 121127 97139 XOR\n2 1 97139 95091 121034 XOR\n2 1 121034 121003 93058 XOR\n2 1 93058 38300 91054 XOR\n2 1 91054 38300 38299 AND\n2 1 38299 38300 120973 XOR\n1 1 120973 38303 INV\n2 1 97139 121003 38401 XOR\n2 1 38401 38402 38400 AND\n2 1 38400 121003 121004 XOR\n2 1 95092 121004 38405 XOR\n2 1 101235 121127 38581 XOR\n2 1 99187 121127 38582 XOR\n2 1 38581 38582 38580 AND\n2 1 38580 121127 121128 XOR\n2 1 121159 121128 97140 XOR\n2 1 97140 95092 121035 XOR\n2 1 121035 121004 93059 XOR\n1 1 93059 38315 INV\n2 1 38315 120973 91055 XOR\n2 1 93059 120973 38302 XOR\n2 1 38302 38303 38301 AND\n2 1 38301 120973 120974 XOR\n2 1 97140 121004 38404 XOR\n2 1 38404 38405 38403 AND\n2 1 38403 121004 121005 XOR\n2 1 101236 121128 38584 XOR\n2 1 99188 121128 38585 XOR\n2 1 38584 38585 38583 AND\n2 1 38583 121128 121129 XOR\n2 1 121160 121129 97141 XOR\n2 1 97141 95093 121036 XOR\n2 1 121036 121005 93060 XOR\n2 1 93060 120974 91056 XOR\n2 1 91026 84882 107707 XOR\n2 1 91025 84881 2944 XOR\n2 1 91025 84881 107676 AND\n2 1 91027 84883 107708 XOR\n2 1 91031 84887 107712 XOR\n2 1 91030 84886 107711 XOR\n2 1 91028 84884 107709 XOR\n2 1 91029 84885 107710 XOR\n2 1 91032 84888 107713 XOR\n2 1 91036 84892 107717 XOR\n2 1 91035 84891 107716 XOR\n2 1 91033 84889 107714 XOR\n2 1 91034 84890 107715 XOR\n2 1 91037 84893 107718 XOR\n2 1 91041 84897 107722 XOR\n2 1 91040 84896 107721 XOR\n2 1 91038 84894 107719 XOR\n2 1 91039 84895 107720 XOR\n2 1 91042 84898 107723 XOR\n2 1 91046 84902 107727 XOR\n2 1 91045 84901 107726 XOR\n2 1 91043 84899 107724 XOR\n2 1 91044 84900 107725 XOR\n2 1 91047 84903 107728 XOR\n2 1 91051 84907 107732 XOR\n2 1 91050 84906 107731 XOR\n2 1 91048 84904 107729 XOR\n2 1 91049 84905 107730 XOR\n2 1 91052 84908 107733 XOR\n2 1 91056 84912 107737 XOR\n2 1 91055 84911 107736 XOR\n2 1 91053 84909 107734 XOR\n2 1 91054 84910 107735 XOR\n2 1 107707 107676 2945 XOR\n2 1 84882 107676 15428 XOR\n2 1 91026 107676 15427 XOR\n2 1 15427 15428 15426 AND\n2 1 15426 107676 107677 XOR\n2 1 107708 107677 2946 XOR\n2 1 84883 107677 15431 XOR\n2 1 91027 107677 15430 XOR\n2 1 15430 15431 15429 AND\n",
"2 1 15429 107677 107678 XOR\n2 1 107709 107678 2947 XOR\n2 1 84884 107678 15434 XOR\n2 1 91028 107678 15433 XOR\n2 1 15433 15434 15432 AND\n2 1 15432 107678 107679 XOR\n2 1 107710 107679 2948 XOR\n2 1 84885 107679 15437 XOR\n2 1 91029 107679 15436 XOR\n2 1 15436 15437 15435 AND\n2 1 15435 107679 107680 XOR\n2 1 107711 107680 2949 XOR\n2 1 84886 107680 15440 XOR\n2 1 91030 107680 15439 XOR\n2 1 15439 15440 15438 AND\n2 1 15438 107680 107681 XOR\n2 1 107712 107681 2950 XOR\n2 1 84887 107681 15443 XOR\n2 1 91031 107681 15442 XOR\n2 1 15442 15443 15441 AND\n2 1 15441 107681 107682 XOR\n2 1 107713 107682 2951 XOR\n2 1 84888 107682 15446 XOR\n2 1 91032 107682 15445 XOR\n2 1 15445 15446 15444 AND\n2 1 15444 107682 107683 XOR\n2 1 107714 107683 2952 XOR\n2 1 84889 107683 15449 XOR\n2 1 91033 107683 15448 XOR\n2 1 15448 15449 15447 AND\n2 1 15447 107683 107684 XOR\n2 1 107715 107684 2953 XOR\n2 1 84890 107684 15452 XOR\n2 1 91034 107684 15451 XOR\n2 1 15451 15452 15450 AND\n2 1 15450 107684 107685 XOR\n2 1 107716 107685 2954 XOR\n2 1 84891 107685 15455 XOR\n2 1 91035 107685 15454 XOR\n2 1 15454 15455 15453 AND\n2 1 15453 107685 107686 XOR\n2 1 107717 107686 2955 XOR\n2 1 84892 107686 15458 XOR\n2 1 91036 107686 15457 XOR\n2 1 15457 15458 15456 AND\n2 1 15456 107686 107687 XOR\n2 1 107718 107687 2956 XOR\n2 1 84893 107687 15461 XOR\n2 1 91037 107687 15460 XOR\n2 1 15460 15461 15459 AND\n2 1 15459 107687 107688 XOR\n2 1 107719 107688 2957 XOR\n2 1 84894 107688 15464 XOR\n2 1 91038 107688 15463 XOR\n2 1 15463 15464 15462 AND\n2 1 15462 107688 107689 XOR\n2 1 107720 107689 2958 XOR\n2 1 3072 91025 107614 AND\n2 1 3072 91025 3456 XOR\n2 1 3073 91026 107645 XOR\n2 1 3074 91027 107646 XOR\n2 1 3075 91028 107647 XOR\n2 1 3076 91029 107648 XOR\n2 1 3077 91030 107649 XOR\n2 1 3078 91031 107650 XOR\n2 1 3079 91032 107651 XOR\n2 1 3080 91033 107652 XOR\n2 1 3081 91034 107653 XOR\n2 1 3082 91035 107654 XOR\n2 1 3083 91036 107655 XOR\n2 1 3084 91037 107656 XOR\n2 1 3085 91038 107657 XOR\n2 1 3086 91039 107658 XOR\n2 1 3087 91040 107659 XOR\n2 1 3088 91041 107660 XOR\n2 1 3089 91042 107661 XOR\n2 1 3090 91043 107662 XOR\n2 1 3091 91044 107663 XOR\n2 1 3092 91045 107664 XOR\n2 1 3093 91046 107665 XOR\n2 1 3094 91047 107666 XOR\n2 1 3095 91048 107667 XOR\n2 1 3096 91049 107668 XOR\n2 1 3097 91050 107669 XOR\n2 1 3098 91051 107670 XOR\n2 1 3099 91052 107671 XOR\n2 1 3100 91053 107672 XOR\n2 1 3101 91054 107673 XOR\n2 1 3102 91055 107674 XOR\n2 1 3103 91056 107675 XOR\n2 1 107645 107614 3457 XOR\n2 1 2958 3022 72765 XOR\n2 1 2957 3021 72764 XOR\n2 1 2956 3020 72763 XOR\n2 1 2955 3019 72762 XOR\n2 1 2954 3018 72761 XOR\n2 1 2953 3017 72760 XOR\n2 1 2952 3016 72759 XOR\n2 1 2951 3015 72758 XOR\n2 1 2950 3014 72757 XOR\n2 1 2949 3013 72756 XOR\n2 1 2948 3012 72755 XOR\n2 1 2947 3011 72754 XOR\n2 1 2946 3010 72753 XOR\n2 1 2945 3009 72752 XOR\n2 1 2944 3008 72751 XOR\n2 1 72765 72733 72701 AND\n2 1 72764 72732 72700 AND\n2 1 72763 72731 72699 AND\n2 1 72762 72730 72698 AND\n2 1 72761 72729 72697 AND\n2 1 72760 72728 72696 AND\n2 1 72759 72727 72695 AND\n2 1 72758 72726 72694 AND\n2 1 72757 72725 72693 AND\n2 1 72756 72724 72692 AND\n2 1 72755 72723 72691 AND\n2 1 72754 72722 72690 AND\n2 1 72753 72721 72689 AND\n2 1 72752 72720 72688 AND\n2 1 72751 72719 72687 AND\n2 1 72701 3022 86911 XOR\n2 1 72700 3021 86910 XOR\n2 1 72699 3020 86909 XOR\n2 1 72698 3019 86908 XOR\n2 1 72697 3018 86907 XOR\n2 1 72696 3017 86906 XOR\n2 1 72695 3016 86905 XOR\n",
"2 1 72694 3015 86904 XOR\n2 1 72693 3014 86903 XOR\n2 1 72692 3013 86902 XOR\n2 1 72691 3012 86901 XOR\n2 1 72690 3011 86900 XOR\n2 1 72689 3010 86899 XOR\n2 1 72688 3009 86898 XOR\n2 1 72687 3008 86897 XOR\n2 1 2958 2990 72637 XOR\n2 1 2957 2989 72636 XOR\n2 1 2956 2988 72635 XOR\n2 1 2955 2987 72634 XOR\n2 1 2954 2986 72633 XOR\n2 1 2953 2985 72632 XOR\n2 1 2952 2984 72631 XOR\n2 1 2951 2983 72630 XOR\n2 1 2950 2982 72629 XOR\n2 1 2949 2981 72628 XOR\n2 1 2948 2980 72627 XOR\n2 1 2947 2979 72626 XOR\n2 1 2946 2978 72625 XOR\n2 1 2945 2977 72624 XOR\n2 1 2944 2976 72623 XOR\n2 1 3073 107614 15337 XOR\n2 1 91026 107614 15338 XOR\n2 1 15337 15338 15336 AND\n2 1 15336 107614 107615 XOR\n2 1 107646 107615 3458 XOR\n2 1 3074 107615 15340 XOR\n2 1 91027 107615 15341 XOR\n2 1 15340 15341 15339 AND\n2 1 15339 107615 107616 XOR\n2 1 107647 107616 3459 XOR\n2 1 3075 107616 15343 XOR\n2 1 91028 107616 15344 XOR\n2 1 15343 15344 15342 AND\n2 1 15342 107616 107617 XOR\n2 1 107648 107617 3460 XOR\n2 1 3076 107617 15346 XOR\n2 1 91029 107617 15347 XOR\n2 1 15346 15347 15345 AND\n2 1 15345 107617 107618 XOR\n2 1 107649 107618 3461 XOR\n2 1 3077 107618 15349 XOR\n2 1 91030 107618 15350 XOR\n2 1 15349 15350 15348 AND\n2 1 15348 107618 107619 XOR\n2 1 107650 107619 3462 XOR\n2 1 3078 107619 15352 XOR\n2 1 91031 107619 15353 XOR\n2 1 15352 15353 15351 AND\n2 1 15351 107619 107620 XOR\n2 1 107651 107620 3463 XOR\n2 1 3079 107620 15355 XOR\n2 1 91032 107620 15356 XOR\n2 1 15355 15356 15354 AND\n2 1 15354 107620 107621 XOR\n2 1 91033 107621 15359 XOR\n2 1 107652 107621 3464 XOR\n2 1 3080 107621 15358 XOR\n2 1 15358 15359 15357 AND\n2 1 15357 107621 107622 XOR\n2 1 3081 107622 15361 XOR\n2 1 107653 107622 3465 XOR\n2 1 91034 107622 15362 XOR\n2 1 15361 15362 15360 AND\n2 1 15360 107622 107623 XOR\n2 1 91035 107623 15365 XOR\n2 1 107654 107623 3466 XOR\n2 1 3082 107623 15364 XOR\n2 1 15364 15365 15363 AND\n2 1 15363 107623 107624 XOR\n2 1 3083 107624 15367 XOR\n2 1 107655 107624 3467 XOR\n2 1 91036 107624 15368 XOR\n2 1 15367 15368 15366 AND\n2 1 15366 107624 107625 XOR\n2 1 91037 107625 15371 XOR\n2 1 107656 107625 3468 XOR\n2 1 3084 107625 15370 XOR\n2 1 15370 15371 15369 AND\n2 1 15369 107625 107626 XOR\n2 1 3085 107626 15373 XOR\n2 1 107657 107626 3469 XOR\n2 1 91038 107626 15374 XOR\n2 1 15373 15374 15372 AND\n2 1 15372 107626 107627 XOR\n2 1 91039 107627 15377 XOR\n2 1 107658 107627 3470 XOR\n2 1 3086 107627 15376 XOR\n2 1 15376 15377 15375 AND\n2 1 15375 107627 107628 XOR\n2 1 3087 107628 15379 XOR\n2 1 107659 107628 3471 XOR\n2 1 91040 107628 15380 XOR\n2 1 15379 15380 15378 AND\n2 1 15378 107628 107629 XOR\n2 1 91041 107629 15383 XOR\n2 1 107660 107629 3472 XOR\n2 1 3088 107629 15382 XOR\n2 1 15382 15383 15381 AND\n2 1 15381 107629 107630 XOR\n2 1 3089 107630 15385 XOR\n2 1 107661 107630 3473 XOR\n2 1 91042 107630 15386 XOR\n2 1 15385 15386 15384 AND\n2 1 15384 107630 107631 XOR\n2 1 91043 107631 15389 XOR\n2 1 107662 107631 3474 XOR\n2 1 3090 107631 15388 XOR\n2 1 15388 15389 15387 AND\n2 1 15387 107631 107632 XOR\n2 1 3091 107632 15391 XOR\n2 1 107663 107632 3475 XOR\n2 1 91044 107632 15392 XOR\n2 1 15391 15392 15390 AND\n2 1 15390 107632 107633 XOR\n2 1 3092 107633 15394 XOR\n2 1 107664 107633 3476 XOR\n2 1 91045 107633 15395 XOR\n2 1 15394 15395 15393 AND\n2 1 15393 107633 107634 XOR\n2 1 3093 107634 15397 XOR\n2 1 107665 107634 3477 XOR\n2 1 91046 107634 15398 XOR\n2 1 15397 15398 15396 AND\n2 1 15396 107634 107635 XOR\n2 1 3094 107635 15400 XOR\n",
"2 1 107666 107635 3478 XOR\n2 1 91047 107635 15401 XOR\n2 1 15400 15401 15399 AND\n2 1 15399 107635 107636 XOR\n2 1 3095 107636 15403 XOR\n2 1 107667 107636 3479 XOR\n2 1 91048 107636 15404 XOR\n2 1 15403 15404 15402 AND\n2 1 15402 107636 107637 XOR\n2 1 3096 107637 15406 XOR\n2 1 107668 107637 3480 XOR\n2 1 91049 107637 15407 XOR\n2 1 15406 15407 15405 AND\n2 1 15405 107637 107638 XOR\n2 1 3097 107638 15409 XOR\n2 1 107669 107638 3481 XOR\n2 1 91050 107638 15410 XOR\n2 1 15409 15410 15408 AND\n2 1 15408 107638 107639 XOR\n2 1 3098 107639 15412 XOR\n2 1 107670 107639 3482 XOR\n2 1 91051 107639 15413 XOR\n2 1 15412 15413 15411 AND\n2 1 15411 107639 107640 XOR\n2 1 3099 107640 15415 XOR\n2 1 107671 107640 3483 XOR\n2 1 91052 107640 15416 XOR\n2 1 15415 15416 15414 AND\n2 1 15414 107640 107641 XOR\n2 1 3100 107641 15418 XOR\n2 1 107672 107641 3484 XOR\n2 1 91053 107641 15419 XOR\n2 1 15418 15419 15417 AND\n2 1 15417 107641 107642 XOR\n2 1 3101 107642 15421 XOR\n2 1 107673 107642 3485 XOR\n2 1 91054 107642 15422 XOR\n2 1 15421 15422 15420 AND\n2 1 15420 107642 107643 XOR\n2 1 3102 107643 15424 XOR\n2 1 107674 107643 3486 XOR\n2 1 91055 107643 15425 XOR\n2 1 15424 15425 15423 AND\n2 1 15423 107643 107644 XOR\n2 1 107675 107644 3487 XOR\n2 1 2945 2956 68078 XOR\n2 1 2944 2955 68077 XOR\n2 1 2947 2958 68048 XOR\n2 1 2946 2957 68047 XOR\n2 1 91039 107689 15466 XOR\n2 1 84895 107689 15467 XOR\n2 1 15466 15467 15465 AND\n2 1 15465 107689 107690 XOR\n2 1 107721 107690 2959 XOR\n2 1 2959 3023 72766 XOR\n2 1 72766 72734 72702 AND\n2 1 72702 3023 86912 XOR\n2 1 2959 2991 72638 XOR\n2 1 2948 2959 68049 XOR\n2 1 91040 107690 15469 XOR\n2 1 84896 107690 15470 XOR\n2 1 15469 15470 15468 AND\n2 1 15468 107690 107691 XOR\n2 1 107722 107691 2960 XOR\n2 1 2960 3024 72767 XOR\n2 1 72767 72735 72703 AND\n2 1 72703 3024 86913 XOR\n2 1 2960 2992 72639 XOR\n2 1 2949 2960 68050 XOR\n2 1 91041 107691 15472 XOR\n2 1 84897 107691 15473 XOR\n2 1 15472 15473 15471 AND\n2 1 15471 107691 107692 XOR\n2 1 107723 107692 2961 XOR\n2 1 2961 3025 72768 XOR\n2 1 72768 72736 72704 AND\n2 1 72704 3025 86914 XOR\n2 1 2961 2993 72640 XOR\n2 1 2950 2961 68051 XOR\n2 1 91042 107692 15475 XOR\n2 1 84898 107692 15476 XOR\n2 1 15475 15476 15474 AND\n2 1 15474 107692 107693 XOR\n2 1 107724 107693 2962 XOR\n2 1 2962 3026 72769 XOR\n2 1 72769 72737 72705 AND\n2 1 72705 3026 86915 XOR\n2 1 2962 2994 72641 XOR\n2 1 2951 2962 68052 XOR\n2 1 91043 107693 15478 XOR\n2 1 84899 107693 15479 XOR\n2 1 15478 15479 15477 AND\n2 1 15477 107693 107694 XOR\n2 1 107725 107694 2963 XOR\n2 1 2963 3027 72770 XOR\n2 1 72770 72738 72706 AND\n2 1 72706 3027 86916 XOR\n2 1 2963 2995 72642 XOR\n2 1 2952 2963 68053 XOR\n2 1 91044 107694 15481 XOR\n2 1 84900 107694 15482 XOR\n2 1 15481 15482 15480 AND\n2 1 15480 107694 107695 XOR\n2 1 107726 107695 2964 XOR\n2 1 2964 3028 72771 XOR\n2 1 72771 72739 72707 AND\n2 1 72707 3028 86917 XOR\n2 1 2964 2996 72643 XOR\n2 1 2953 2964 68054 XOR\n2 1 68077 2964 88975 XOR\n2 1 91045 107695 15484 XOR\n2 1 84901 107695 15485 XOR\n2 1 15484 15485 15483 AND\n2 1 15483 107695 107696 XOR\n2 1 107727 107696 2965 XOR\n2 1 2965 3029 72772 XOR\n2 1 72772 72740 72708 AND\n2 1 72708 3029 86918 XOR\n2 1 2965 2997 72644 XOR\n2 1 2965 2944 68066 XOR\n2 1 2954 2965 68055 XOR\n2 1 68078 2965 88976 XOR\n2 1 68066 2953 88964 XOR\n2 1 88964 86916 120701 XOR\n2 1 91046 107696 15487 XOR\n2 1 84902 107696 15488 XOR\n2 1 15487 15488 15486 AND\n2 1 15486 107696 107697 XOR\n",
"2 1 107728 107697 2966 XOR\n2 1 2966 3030 72773 XOR\n2 1 72773 72741 72709 AND\n2 1 72709 3030 86919 XOR\n2 1 2966 2998 72645 XOR\n2 1 2966 2945 68067 XOR\n2 1 2955 2966 68056 XOR\n2 1 68067 2954 88965 XOR\n2 1 88965 86917 120702 XOR\n2 1 68047 2966 88945 XOR\n2 1 88945 86897 120652 AND\n2 1 88945 86897 84849 XOR\n2 1 86898 120652 37687 XOR\n2 1 91047 107697 15490 XOR\n2 1 84903 107697 15491 XOR\n2 1 15490 15491 15489 AND\n2 1 15489 107697 107698 XOR\n2 1 107729 107698 2967 XOR\n2 1 2967 3031 72774 XOR\n2 1 72774 72742 72710 AND\n2 1 72710 3031 86920 XOR\n2 1 2967 2999 72646 XOR\n2 1 2967 2946 68068 XOR\n2 1 2956 2967 68057 XOR\n2 1 68068 2955 88966 XOR\n2 1 88966 86918 120703 XOR\n2 1 68057 2944 88955 XOR\n2 1 88955 86907 120692 XOR\n2 1 68048 2967 88946 XOR\n2 1 88946 86898 120683 XOR\n2 1 120683 120652 84850 XOR\n2 1 88946 120652 37686 XOR\n2 1 37686 37687 37685 AND\n2 1 37685 120652 120653 XOR\n2 1 86899 120653 37690 XOR\n2 1 91048 107698 15493 XOR\n2 1 84904 107698 15494 XOR\n2 1 15493 15494 15492 AND\n2 1 15492 107698 107699 XOR\n2 1 107730 107699 2968 XOR\n2 1 2968 3032 72775 XOR\n2 1 72775 72743 72711 AND\n2 1 72711 3032 86921 XOR\n2 1 2968 3000 72647 XOR\n2 1 2968 2947 68069 XOR\n2 1 2957 2968 68058 XOR\n2 1 68069 2956 88967 XOR\n2 1 88967 86919 120704 XOR\n2 1 68058 2945 88956 XOR\n2 1 88956 86908 120693 XOR\n2 1 68049 2968 88947 XOR\n2 1 88947 86899 120684 XOR\n2 1 120684 120653 84851 XOR\n2 1 88947 120653 37689 XOR\n2 1 37689 37690 37688 AND\n2 1 37688 120653 120654 XOR\n2 1 86900 120654 37693 XOR\n2 1 91049 107699 15496 XOR\n2 1 84905 107699 15497 XOR\n2 1 15496 15497 15495 AND\n2 1 15495 107699 107700 XOR\n2 1 107731 107700 2969 XOR\n2 1 2969 3033 72776 XOR\n2 1 72776 72744 72712 AND\n2 1 72712 3033 86922 XOR\n2 1 2969 3001 72648 XOR\n2 1 2969 2948 68070 XOR\n2 1 2958 2969 68059 XOR\n2 1 68070 2957 88968 XOR\n2 1 88968 86920 120705 XOR\n2 1 68059 2946 88957 XOR\n2 1 88957 86909 120694 XOR\n2 1 68050 2969 88948 XOR\n2 1 88948 86900 120685 XOR\n2 1 120685 120654 84852 XOR\n2 1 88948 120654 37692 XOR\n2 1 37692 37693 37691 AND\n2 1 37691 120654 120655 XOR\n2 1 86901 120655 37696 XOR\n2 1 91050 107700 15499 XOR\n2 1 84906 107700 15500 XOR\n2 1 15499 15500 15498 AND\n2 1 15498 107700 107701 XOR\n2 1 107732 107701 2970 XOR\n2 1 2970 3034 72777 XOR\n2 1 72777 72745 72713 AND\n2 1 72713 3034 86923 XOR\n2 1 2970 3002 72649 XOR\n2 1 2970 2949 68071 XOR\n2 1 2959 2970 68060 XOR\n2 1 68071 2958 88969 XOR\n2 1 88969 86921 120706 XOR\n2 1 68060 2947 88958 XOR\n2 1 88958 86910 120695 XOR\n2 1 68051 2970 88949 XOR\n2 1 88949 86901 120686 XOR\n2 1 120686 120655 84853 XOR\n2 1 88949 120655 37695 XOR\n2 1 37695 37696 37694 AND\n2 1 37694 120655 120656 XOR\n2 1 86902 120656 37699 XOR\n2 1 91051 107701 15502 XOR\n2 1 84907 107701 15503 XOR\n2 1 15502 15503 15501 AND\n2 1 15501 107701 107702 XOR\n2 1 107733 107702 2971 XOR\n2 1 2971 3035 72778 XOR\n2 1 72778 72746 72714 AND\n2 1 72714 3035 86924 XOR\n2 1 2971 3003 72650 XOR\n2 1 2971 2950 68072 XOR\n2 1 2960 2971 68061 XOR\n2 1 68072 2959 88970 XOR\n2 1 88970 86922 120707 XOR\n2 1 68061 2948 88959 XOR\n2 1 88959 86911 120696 XOR\n2 1 68052 2971 88950 XOR\n2 1 88950 86902 120687 XOR\n2 1 120687 120656 84854 XOR\n2 1 88950 120656 37698 XOR\n2 1 37698 37699 37697 AND\n2 1 37697 120656 120657 XOR\n2 1 86903 120657 37702 XOR\n2 1 91052 107702 15505 XOR\n2 1 84908 107702 15506 XOR\n2 1 15505 15506 15504 AND\n2 1 15504 107702 107703 XOR\n2 1 107734 107703 2972 XOR\n",
"2 1 2972 3036 72779 XOR\n2 1 72779 72747 72715 AND\n2 1 72715 3036 86925 XOR\n2 1 2972 3004 72651 XOR\n2 1 2972 2951 68073 XOR\n2 1 2961 2972 68062 XOR\n2 1 68073 2960 88971 XOR\n2 1 88971 86923 120708 XOR\n2 1 68062 2949 88960 XOR\n2 1 88960 86912 120697 XOR\n2 1 68053 2972 88951 XOR\n2 1 88951 86903 120688 XOR\n2 1 120688 120657 84855 XOR\n2 1 88951 120657 37701 XOR\n2 1 37701 37702 37700 AND\n2 1 37700 120657 120658 XOR\n2 1 86904 120658 37705 XOR\n2 1 91053 107703 15508 XOR\n2 1 84909 107703 15509 XOR\n2 1 15508 15509 15507 AND\n2 1 15507 107703 107704 XOR\n2 1 107735 107704 2973 XOR\n2 1 2973 3037 72780 XOR\n2 1 72780 72748 72716 AND\n2 1 72716 3037 86926 XOR\n2 1 2973 3005 72652 XOR\n2 1 2973 2952 68074 XOR\n2 1 2962 2973 68063 XOR\n2 1 68074 2961 88972 XOR\n2 1 88972 86924 120709 XOR\n2 1 68063 2950 88961 XOR\n2 1 88961 86913 120698 XOR\n2 1 68054 2973 88952 XOR\n2 1 88952 86904 120689 XOR\n2 1 120689 120658 84856 XOR\n2 1 88952 120658 37704 XOR\n2 1 37704 37705 37703 AND\n2 1 37703 120658 120659 XOR\n2 1 86905 120659 37708 XOR\n2 1 91054 107704 15511 XOR\n2 1 84910 107704 15512 XOR\n2 1 15511 15512 15510 AND\n2 1 15510 107704 107705 XOR\n2 1 107736 107705 2974 XOR\n2 1 2974 3038 72781 XOR\n2 1 72781 72749 72717 AND\n2 1 72717 3038 86927 XOR\n2 1 88975 86927 120712 XOR\n2 1 2974 3006 72653 XOR\n2 1 2974 2953 68075 XOR\n2 1 2963 2974 68064 XOR\n2 1 68075 2962 88973 XOR\n2 1 88973 86925 120710 XOR\n2 1 68064 2951 88962 XOR\n2 1 88962 86914 120699 XOR\n2 1 68055 2974 88953 XOR\n2 1 88953 86905 120690 XOR\n2 1 120690 120659 84857 XOR\n2 1 88953 120659 37707 XOR\n2 1 37707 37708 37706 AND\n2 1 37706 120659 120660 XOR\n2 1 86906 120660 37711 XOR\n2 1 91055 107705 15514 XOR\n2 1 84911 107705 15515 XOR\n2 1 15514 15515 15513 AND\n2 1 15513 107705 107706 XOR\n2 1 107737 107706 2975 XOR\n2 1 2975 3039 72782 XOR\n2 1 72782 72750 72718 AND\n2 1 72718 3039 86928 XOR\n2 1 88976 86928 120713 XOR\n2 1 2975 3007 72654 XOR\n2 1 2975 2954 68076 XOR\n2 1 2964 2975 68065 XOR\n2 1 68076 2963 88974 XOR\n2 1 88974 86926 120711 XOR\n2 1 68065 2952 88963 XOR\n2 1 88963 86915 120700 XOR\n2 1 68056 2975 88954 XOR\n2 1 88954 86906 120691 XOR\n2 1 120691 120660 84858 XOR\n2 1 88954 120660 37710 XOR\n2 1 37710 37711 37709 AND\n2 1 37709 120660 120661 XOR\n2 1 120692 120661 84859 XOR\n2 1 88955 120661 37713 XOR\n2 1 86907 120661 37714 XOR\n2 1 37713 37714 37712 AND\n2 1 37712 120661 120662 XOR\n2 1 120693 120662 84860 XOR\n2 1 88956 120662 37716 XOR\n2 1 86908 120662 37717 XOR\n2 1 37716 37717 37715 AND\n2 1 37715 120662 120663 XOR\n2 1 120694 120663 84861 XOR\n2 1 88957 120663 37719 XOR\n2 1 86909 120663 37720 XOR\n2 1 37719 37720 37718 AND\n2 1 37718 120663 120664 XOR\n2 1 120695 120664 84862 XOR\n2 1 88958 120664 37722 XOR\n2 1 86910 120664 37723 XOR\n2 1 37722 37723 37721 AND\n2 1 37721 120664 120665 XOR\n2 1 120696 120665 84863 XOR\n2 1 88959 120665 37725 XOR\n2 1 86911 120665 37726 XOR\n2 1 37725 37726 37724 AND\n2 1 37724 120665 120666 XOR\n2 1 120697 120666 84864 XOR\n2 1 88960 120666 37728 XOR\n2 1 86912 120666 37729 XOR\n2 1 37728 37729 37727 AND\n2 1 37727 120666 120667 XOR\n2 1 120698 120667 84865 XOR\n2 1 88961 120667 37731 XOR\n2 1 86913 120667 37732 XOR\n2 1 37731 37732 37730 AND\n2 1 37730 120667 120668 XOR\n2 1 120699 120668 84866 XOR\n2 1 88962 120668 37734 XOR\n2 1 86914 120668 37735 XOR\n2 1 37734 37735 37733 AND\n2 1 37733 120668 120669 XOR\n2 1 120700 120669 84867 XOR\n2 1 88963 120669 37737 XOR\n2 1 86915 120669 37738 XOR\n2 1 37737 37738 37736 AND\n",
"2 1 37736 120669 120670 XOR\n2 1 120701 120670 84868 XOR\n2 1 88964 120670 37740 XOR\n2 1 86916 120670 37741 XOR\n2 1 37740 37741 37739 AND\n2 1 37739 120670 120671 XOR\n2 1 120702 120671 84869 XOR\n2 1 88965 120671 37743 XOR\n2 1 86917 120671 37744 XOR\n2 1 37743 37744 37742 AND\n2 1 37742 120671 120672 XOR\n2 1 120703 120672 84870 XOR\n2 1 88966 120672 37746 XOR\n2 1 86918 120672 37747 XOR\n2 1 37746 37747 37745 AND\n2 1 37745 120672 120673 XOR\n2 1 120704 120673 84871 XOR\n2 1 88967 120673 37749 XOR\n2 1 86919 120673 37750 XOR\n2 1 37749 37750 37748 AND\n2 1 37748 120673 120674 XOR\n2 1 120705 120674 84872 XOR\n2 1 88968 120674 37752 XOR\n2 1 86920 120674 37753 XOR\n2 1 37752 37753 37751 AND\n2 1 37751 120674 120675 XOR\n2 1 120706 120675 84873 XOR\n2 1 88969 120675 37755 XOR\n2 1 86921 120675 37756 XOR\n2 1 37755 37756 37754 AND\n2 1 37754 120675 120676 XOR\n2 1 120707 120676 84874 XOR\n2 1 88970 120676 37758 XOR\n2 1 86922 120676 37759 XOR\n2 1 37758 37759 37757 AND\n2 1 37757 120676 120677 XOR\n2 1 120708 120677 84875 XOR\n2 1 88971 120677 37761 XOR\n2 1 86923 120677 37762 XOR\n2 1 37761 37762 37760 AND\n2 1 37760 120677 120678 XOR\n2 1 120709 120678 84876 XOR\n2 1 88972 120678 37764 XOR\n2 1 86924 120678 37765 XOR\n2 1 37764 37765 37763 AND\n2 1 37763 120678 120679 XOR\n2 1 120710 120679 84877 XOR\n2 1 88973 120679 37767 XOR\n2 1 86925 120679 37768 XOR\n2 1 37767 37768 37766 AND\n2 1 37766 120679 120680 XOR\n2 1 120711 120680 84878 XOR\n2 1 88974 120680 37770 XOR\n2 1 86926 120680 37771 XOR\n2 1 37770 37771 37769 AND\n2 1 37769 120680 120681 XOR\n2 1 120712 120681 84879 XOR\n2 1 88975 120681 37773 XOR\n2 1 86927 120681 37774 XOR\n2 1 37773 37774 37772 AND\n2 1 37772 120681 120682 XOR\n2 1 120713 120682 84880 XOR\n2 1 65518 3487 65486 AND\n2 1 65517 3486 65485 AND\n2 1 65516 3485 65484 AND\n2 1 65515 3484 65483 AND\n2 1 65514 3483 65482 AND\n2 1 65513 3482 65481 AND\n2 1 65512 3481 65480 AND\n2 1 65511 3480 65479 AND\n2 1 65510 3479 65478 AND\n2 1 65509 3478 65477 AND\n2 1 65508 3477 65476 AND\n2 1 65507 3476 65475 AND\n2 1 65506 3475 65474 AND\n2 1 65505 3474 65473 AND\n2 1 65504 3473 65472 AND\n2 1 65503 3472 65471 AND\n2 1 65502 3471 65470 AND\n2 1 65501 3470 65469 AND\n2 1 65500 3469 65468 AND\n2 1 65499 3468 65467 AND\n2 1 65498 3467 65466 AND\n2 1 65497 3466 65465 AND\n2 1 65496 3465 65464 AND\n2 1 65495 3464 65463 AND\n2 1 65494 3463 65462 AND\n2 1 65493 3462 65461 AND\n2 1 65492 3461 65460 AND\n2 1 65491 3460 65459 AND\n2 1 65490 3459 65458 AND\n2 1 65489 3458 65457 AND\n2 1 65488 3457 65456 AND\n2 1 65487 3456 65455 AND\n2 1 65486 3551 99157 XOR\n2 1 65485 3550 99156 XOR\n2 1 65484 3549 99155 XOR\n2 1 65483 3548 99154 XOR\n2 1 65482 3547 99153 XOR\n2 1 65481 3546 99152 XOR\n2 1 65480 3545 99151 XOR\n2 1 65479 3544 99150 XOR\n2 1 65478 3543 99149 XOR\n2 1 65477 3542 99148 XOR\n2 1 65476 3541 99147 XOR\n2 1 65475 3540 99146 XOR\n2 1 65474 3539 99145 XOR\n2 1 65473 3538 99144 XOR\n2 1 65472 3537 99143 XOR\n2 1 65471 3536 99142 XOR\n2 1 65470 3535 99141 XOR\n2 1 65469 3534 99140 XOR\n2 1 65468 3533 99139 XOR\n2 1 65467 3532 99138 XOR\n2 1 65466 3531 99137 XOR\n2 1 65465 3530 99136 XOR\n2 1 65464 3529 99135 XOR\n2 1 65463 3528 99134 XOR\n2 1 65462 3527 99133 XOR\n2 1 65461 3526 99132 XOR\n2 1 65460 3525 99131 XOR\n2 1 65459 3524 99130 XOR\n2 1 65458 3523 99129 XOR\n2 1 65457 3522 99128 XOR\n2 1 65456 3521 99127 XOR\n2 1 65455 3520 99126 XOR\n2 1 3487 3519 65454 XOR\n2 1 3486 3518 65453 XOR\n",
"2 1 3485 3517 65452 XOR\n2 1 3484 3516 65451 XOR\n2 1 3483 3515 65450 XOR\n2 1 3482 3514 65449 XOR\n2 1 3481 3513 65448 XOR\n2 1 3480 3512 65447 XOR\n2 1 3479 3511 65446 XOR\n2 1 3478 3510 65445 XOR\n2 1 3477 3509 65444 XOR\n2 1 3476 3508 65443 XOR\n2 1 3475 3507 65442 XOR\n2 1 3474 3506 65441 XOR\n2 1 3473 3505 65440 XOR\n2 1 3472 3504 65439 XOR\n2 1 3471 3503 65438 XOR\n2 1 3470 3502 65437 XOR\n2 1 3469 3501 65436 XOR\n2 1 3468 3500 65435 XOR\n2 1 3467 3499 65434 XOR\n2 1 3466 3498 65433 XOR\n2 1 3465 3497 65432 XOR\n2 1 3464 3496 65431 XOR\n2 1 3463 3495 65430 XOR\n2 1 3462 3494 65429 XOR\n2 1 3461 3493 65428 XOR\n2 1 3460 3492 65427 XOR\n2 1 3459 3491 65426 XOR\n2 1 3458 3490 65425 XOR\n2 1 3457 3489 65424 XOR\n2 1 3456 3488 65423 XOR\n2 1 3461 3466 62158 XOR\n2 1 3460 3465 62157 XOR\n2 1 3459 3464 62156 XOR\n2 1 3458 3463 62155 XOR\n2 1 3457 3462 62154 XOR\n2 1 3456 3461 62153 XOR\n2 1 3487 3460 62152 XOR\n2 1 3486 3459 62151 XOR\n2 1 3485 3458 62150 XOR\n2 1 3484 3457 62149 XOR\n2 1 3483 3456 62148 XOR\n2 1 3482 3487 62147 XOR\n2 1 3481 3486 62146 XOR\n2 1 3480 3485 62145 XOR\n2 1 3479 3484 62144 XOR\n2 1 3478 3483 62143 XOR\n2 1 3477 3482 62142 XOR\n2 1 3476 3481 62141 XOR\n2 1 3475 3480 62140 XOR\n2 1 3474 3479 62139 XOR\n2 1 3473 3478 62138 XOR\n2 1 3472 3477 62137 XOR\n2 1 3471 3476 62136 XOR\n2 1 3470 3475 62135 XOR\n2 1 3469 3474 62134 XOR\n2 1 3468 3473 62133 XOR\n2 1 3467 3472 62132 XOR\n2 1 3466 3471 62131 XOR\n2 1 3465 3470 62130 XOR\n2 1 3464 3469 62129 XOR\n2 1 3463 3468 62128 XOR\n2 1 3462 3467 62127 XOR\n2 1 62158 3480 101205 XOR\n2 1 101205 99157 120899 XOR\n2 1 62157 3479 101204 XOR\n2 1 101204 99156 120898 XOR\n2 1 62156 3478 101203 XOR\n2 1 101203 99155 120897 XOR\n2 1 62155 3477 101202 XOR\n2 1 101202 99154 120896 XOR\n2 1 62154 3476 101201 XOR\n2 1 101201 99153 120895 XOR\n2 1 62153 3475 101200 XOR\n2 1 101200 99152 120894 XOR\n2 1 62152 3474 101199 XOR\n2 1 101199 99151 120893 XOR\n2 1 62151 3473 101198 XOR\n2 1 101198 99150 120892 XOR\n2 1 62150 3472 101197 XOR\n2 1 101197 99149 120891 XOR\n2 1 62149 3471 101196 XOR\n2 1 101196 99148 120890 XOR\n2 1 62148 3470 101195 XOR\n2 1 101195 99147 120889 XOR\n2 1 62147 3469 101194 XOR\n2 1 101194 99146 120888 XOR\n2 1 62146 3468 101193 XOR\n2 1 101193 99145 120887 XOR\n2 1 62145 3467 101192 XOR\n2 1 101192 99144 120886 XOR\n2 1 62144 3466 101191 XOR\n2 1 101191 99143 120885 XOR\n2 1 62143 3465 101190 XOR\n2 1 101190 99142 120884 XOR\n2 1 62142 3464 101189 XOR\n2 1 101189 99141 120883 XOR\n2 1 62141 3463 101188 XOR\n2 1 101188 99140 120882 XOR\n2 1 62140 3462 101187 XOR\n2 1 101187 99139 120881 XOR\n2 1 62139 3461 101186 XOR\n2 1 101186 99138 120880 XOR\n2 1 62138 3460 101185 XOR\n2 1 101185 99137 120879 XOR\n2 1 62137 3459 101184 XOR\n2 1 101184 99136 120878 XOR\n2 1 62136 3458 101183 XOR\n2 1 101183 99135 120877 XOR\n2 1 62135 3457 101182 XOR\n2 1 101182 99134 120876 XOR\n2 1 62134 3456 101181 XOR\n2 1 101181 99133 120875 XOR\n2 1 62133 3487 101180 XOR\n2 1 101180 99132 120874 XOR\n2 1 62132 3486 101179 XOR\n2 1 101179 99131 120873 XOR\n2 1 62131 3485 101178 XOR\n2 1 101178 99130 120872 XOR\n2 1 62130 3484 101177 XOR\n2 1 101177 99129 120871 XOR\n2 1 62129 3483 101176 XOR\n2 1 101176 99128 120870 XOR\n2 1 62128 3482 101175 XOR\n2 1 101175 99127 120869 XOR\n2 1 62127 3481 101174 XOR\n2 1 101174 99126 120838 AND\n2 1 101174 99126 97078 XOR\n2 1 120869 120838 97079 XOR\n",
"2 1 101175 120838 38056 XOR\n2 1 99127 120838 38057 XOR\n2 1 38056 38057 38055 AND\n2 1 38055 120838 120839 XOR\n2 1 120870 120839 97080 XOR\n2 1 101176 120839 38059 XOR\n2 1 99128 120839 38060 XOR\n2 1 38059 38060 38058 AND\n2 1 38058 120839 120840 XOR\n2 1 120871 120840 97081 XOR\n2 1 101177 120840 38062 XOR\n2 1 99129 120840 38063 XOR\n2 1 38062 38063 38061 AND\n2 1 38061 120840 120841 XOR\n2 1 120872 120841 97082 XOR\n2 1 101178 120841 38065 XOR\n2 1 99130 120841 38066 XOR\n2 1 38065 38066 38064 AND\n2 1 38064 120841 120842 XOR\n2 1 120873 120842 97083 XOR\n2 1 101179 120842 38068 XOR\n2 1 99131 120842 38069 XOR\n2 1 38068 38069 38067 AND\n2 1 38067 120842 120843 XOR\n2 1 120874 120843 97084 XOR\n2 1 101180 120843 38071 XOR\n2 1 99132 120843 38072 XOR\n2 1 38071 38072 38070 AND\n2 1 38070 120843 120844 XOR\n2 1 120875 120844 97085 XOR\n2 1 101181 120844 38074 XOR\n2 1 99133 120844 38075 XOR\n2 1 38074 38075 38073 AND\n2 1 38073 120844 120845 XOR\n2 1 120876 120845 97086 XOR\n2 1 101182 120845 38077 XOR\n2 1 99134 120845 38078 XOR\n2 1 38077 38078 38076 AND\n2 1 38076 120845 120846 XOR\n2 1 120877 120846 97087 XOR\n2 1 101183 120846 38080 XOR\n2 1 99135 120846 38081 XOR\n2 1 38080 38081 38079 AND\n2 1 38079 120846 120847 XOR\n2 1 120878 120847 97088 XOR\n2 1 101184 120847 38083 XOR\n2 1 99136 120847 38084 XOR\n2 1 38083 38084 38082 AND\n2 1 38082 120847 120848 XOR\n2 1 120879 120848 97089 XOR\n2 1 101185 120848 38086 XOR\n2 1 99137 120848 38087 XOR\n2 1 38086 38087 38085 AND\n2 1 38085 120848 120849 XOR\n2 1 120880 120849 97090 XOR\n2 1 101186 120849 38089 XOR\n2 1 99138 120849 38090 XOR\n2 1 38089 38090 38088 AND\n2 1 38088 120849 120850 XOR\n2 1 120881 120850 97091 XOR\n2 1 101187 120850 38092 XOR\n2 1 99139 120850 38093 XOR\n2 1 38092 38093 38091 AND\n2 1 38091 120850 120851 XOR\n2 1 120882 120851 97092 XOR\n2 1 101188 120851 38095 XOR\n2 1 99140 120851 38096 XOR\n2 1 38095 38096 38094 AND\n2 1 38094 120851 120852 XOR\n2 1 120883 120852 97093 XOR\n2 1 101189 120852 38098 XOR\n2 1 99141 120852 38099 XOR\n2 1 38098 38099 38097 AND\n2 1 38097 120852 120853 XOR\n2 1 120884 120853 97094 XOR\n2 1 101190 120853 38101 XOR\n2 1 99142 120853 38102 XOR\n2 1 38101 38102 38100 AND\n2 1 38100 120853 120854 XOR\n2 1 120885 120854 97095 XOR\n2 1 101191 120854 38104 XOR\n2 1 99143 120854 38105 XOR\n2 1 38104 38105 38103 AND\n2 1 38103 120854 120855 XOR\n2 1 120886 120855 97096 XOR\n2 1 101192 120855 38107 XOR\n2 1 99144 120855 38108 XOR\n2 1 38107 38108 38106 AND\n2 1 38106 120855 120856 XOR\n2 1 120887 120856 97097 XOR\n2 1 101193 120856 38110 XOR\n2 1 99145 120856 38111 XOR\n2 1 38110 38111 38109 AND\n2 1 38109 120856 120857 XOR\n2 1 120888 120857 97098 XOR\n2 1 101194 120857 38113 XOR\n2 1 99146 120857 38114 XOR\n2 1 38113 38114 38112 AND\n2 1 38112 120857 120858 XOR\n2 1 120889 120858 97099 XOR\n2 1 101195 120858 38116 XOR\n2 1 99147 120858 38117 XOR\n2 1 38116 38117 38115 AND\n2 1 38115 120858 120859 XOR\n2 1 120890 120859 97100 XOR\n2 1 101196 120859 38119 XOR\n2 1 99148 120859 38120 XOR\n2 1 38119 38120 38118 AND\n2 1 38118 120859 120860 XOR\n2 1 120891 120860 97101 XOR\n2 1 101197 120860 38122 XOR\n2 1 99149 120860 38123 XOR\n2 1 38122 38123 38121 AND\n2 1 38121 120860 120861 XOR\n2 1 120892 120861 97102 XOR\n2 1 101198 120861 38125 XOR\n2 1 99150 120861 38126 XOR\n2 1 38125 38126 38124 AND\n2 1 38124 120861 120862 XOR\n2 1 120893 120862 97103 XOR\n2 1 101199 120862 38128 XOR\n2 1 99151 120862 38129 XOR\n2 1 38128 38129 38127 AND\n2 1 38127 120862 120863 XOR\n2 1 120894 120863 97104 XOR\n2 1 101200 120863 38131 XOR\n2 1 99152 120863 38132 XOR\n2 1 38131 38132 38130 AND\n",
"2 1 38130 120863 120864 XOR\n2 1 120895 120864 97105 XOR\n2 1 101201 120864 38134 XOR\n2 1 99153 120864 38135 XOR\n2 1 38134 38135 38133 AND\n2 1 38133 120864 120865 XOR\n2 1 120896 120865 97106 XOR\n2 1 101202 120865 38137 XOR\n2 1 99154 120865 38138 XOR\n2 1 38137 38138 38136 AND\n2 1 38136 120865 120866 XOR\n2 1 120897 120866 97107 XOR\n2 1 101203 120866 38140 XOR\n2 1 99155 120866 38141 XOR\n2 1 38140 38141 38139 AND\n2 1 38139 120866 120867 XOR\n2 1 120898 120867 97108 XOR\n2 1 101204 120867 38143 XOR\n2 1 99156 120867 38144 XOR\n2 1 38143 38144 38142 AND\n2 1 38142 120867 120868 XOR\n2 1 120899 120868 97109 XOR\n2 1 76993 76995 81808 XOR\n2 1 81808 31 134220 XOR\n2 1 76992 76994 81807 XOR\n2 1 81807 30 134219 XOR\n2 1 76991 76993 81806 XOR\n2 1 81806 29 134218 XOR\n2 1 76990 76992 81805 XOR\n2 1 81805 28 134217 XOR\n2 1 76989 76991 81804 XOR\n2 1 81804 27 134216 XOR\n2 1 76988 76990 81803 XOR\n2 1 81803 26 134215 XOR\n2 1 76987 76989 81802 XOR\n2 1 81802 25 134214 XOR\n2 1 76986 76988 81801 XOR\n2 1 81801 24 134213 XOR\n2 1 76985 76987 81800 XOR\n2 1 81800 23 134212 XOR\n2 1 76984 76986 81799 XOR\n2 1 81799 22 134211 XOR\n2 1 76983 76985 7035 XOR\n2 1 76982 76984 7034 XOR\n2 1 76981 76983 7033 XOR\n2 1 76980 76982 7032 XOR\n2 1 76979 76981 7031 XOR\n2 1 76978 76980 7030 XOR\n2 1 76977 76979 7029 XOR\n2 1 77008 76978 7028 XOR\n2 1 77007 76977 7027 XOR\n2 1 77006 77008 7026 XOR\n2 1 77005 77007 7025 XOR\n2 1 77004 77006 7024 XOR\n2 1 77003 77005 7023 XOR\n2 1 77002 77004 7022 XOR\n2 1 77001 77003 7021 XOR\n2 1 77000 77002 7020 XOR\n2 1 76999 77001 7019 XOR\n2 1 76998 77000 7018 XOR\n2 1 76997 76999 7017 XOR\n2 1 76996 76998 7016 XOR\n2 1 76995 76997 7015 XOR\n2 1 76994 76996 7014 XOR\n2 1 7035 77008 81798 XOR\n2 1 81798 21 134210 XOR\n2 1 7034 77007 81797 XOR\n2 1 81797 20 134209 XOR\n2 1 7033 77006 81796 XOR\n2 1 81796 19 134208 XOR\n2 1 7032 77005 81795 XOR\n2 1 81795 18 134207 XOR\n2 1 7031 77004 81794 XOR\n2 1 81794 17 134206 XOR\n2 1 7030 77003 81793 XOR\n2 1 81793 16 134205 XOR\n2 1 7029 77002 81792 XOR\n2 1 81792 15 134204 XOR\n2 1 7028 77001 81791 XOR\n2 1 81791 14 134203 XOR\n2 1 7027 77000 81790 XOR\n2 1 81790 13 134202 XOR\n2 1 7026 76999 81789 XOR\n2 1 81789 12 134201 XOR\n2 1 7025 76998 81788 XOR\n2 1 81788 11 134200 XOR\n2 1 7024 76997 81787 XOR\n2 1 81787 10 134199 XOR\n2 1 7023 76996 81786 XOR\n2 1 81786 9 134198 XOR\n2 1 7022 76995 81785 XOR\n2 1 81785 8 134197 XOR\n2 1 7021 76994 81784 XOR\n2 1 81784 7 134196 XOR\n2 1 7020 76993 81783 XOR\n2 1 81783 6 134195 XOR\n2 1 7019 76992 81782 XOR\n2 1 81782 5 134194 XOR\n2 1 7018 76991 81781 XOR\n2 1 81781 4 134193 XOR\n2 1 7017 76990 81780 XOR\n2 1 81780 3 134192 XOR\n2 1 7016 76989 81779 XOR\n2 1 81779 2 134191 XOR\n2 1 7015 76988 81778 XOR\n2 1 81778 1 134190 XOR\n2 1 7014 76987 81777 XOR\n2 1 81777 0 134159 AND\n2 1 81777 0 80241 XOR\n2 1 80241 78705 134035 AND\n2 1 80241 78705 76913 XOR\n2 1 76913 3552 120776 AND\n2 1 76913 3552 95030 XOR\n2 1 97078 95030 120714 AND\n2 1 97078 95030 90993 XOR\n2 1 97079 120714 37876 XOR\n2 1 3553 120776 37967 XOR\n2 1 90993 84849 107552 AND\n2 1 84850 107552 15248 XOR\n2 1 3040 90993 3424 XOR\n2 1 3040 90993 107490 AND\n2 1 3041 107490 15157 XOR\n2 1 78706 134035 59017 XOR\n2 1 134190 134159 80242 XOR\n2 1 80242 78706 134066 XOR\n2 1 134066 134035 76914 XOR\n2 1 76914 3553 120807 XOR\n2 1 120807 120776 95031 XOR\n",
"2 1 97079 95031 120745 XOR\n2 1 120745 120714 90994 XOR\n2 1 95031 120714 37877 XOR\n2 1 37876 37877 37875 AND\n2 1 37875 120714 120715 XOR\n2 1 97080 120715 37879 XOR\n2 1 76914 120776 37966 XOR\n2 1 37966 37967 37965 AND\n2 1 37965 120776 120777 XOR\n2 1 3554 120777 37970 XOR\n2 1 90994 84850 107583 XOR\n2 1 90994 107552 15247 XOR\n2 1 15247 15248 15246 AND\n2 1 107583 107552 2913 XOR\n2 1 90994 107490 15158 XOR\n2 1 15157 15158 15156 AND\n2 1 3041 90994 107521 XOR\n2 1 107521 107490 3425 XOR\n2 1 15156 107490 107491 XOR\n2 1 80242 134035 59016 XOR\n2 1 59016 59017 59015 AND\n2 1 59015 134035 134036 XOR\n2 1 78707 134036 59020 XOR\n2 1 81778 134159 59196 XOR\n2 1 1 134159 59197 XOR\n2 1 59196 59197 59195 AND\n2 1 59195 134159 134160 XOR\n2 1 134191 134160 80243 XOR\n2 1 80243 78707 134067 XOR\n2 1 134067 134036 76915 XOR\n2 1 76915 3554 120808 XOR\n2 1 120808 120777 95032 XOR\n2 1 97080 95032 120746 XOR\n2 1 120746 120715 93000 XOR\n1 1 93000 90995 INV\n2 1 95032 120715 37880 XOR\n2 1 37879 37880 37878 AND\n2 1 37878 120715 120716 XOR\n2 1 97081 120716 37882 XOR\n2 1 76915 120777 37969 XOR\n2 1 37969 37970 37968 AND\n2 1 37968 120777 120778 XOR\n2 1 3555 120778 37973 XOR\n2 1 90995 84851 107584 XOR\n2 1 3042 90995 107522 XOR\n2 1 80243 134036 59019 XOR\n2 1 59019 59020 59018 AND\n2 1 59018 134036 134037 XOR\n2 1 78708 134037 59023 XOR\n2 1 81779 134160 59199 XOR\n2 1 2 134160 59200 XOR\n2 1 59199 59200 59198 AND\n2 1 59198 134160 134161 XOR\n2 1 134192 134161 80244 XOR\n2 1 80244 78708 134068 XOR\n2 1 134068 134037 76916 XOR\n2 1 76916 3555 120809 XOR\n2 1 120809 120778 95033 XOR\n2 1 97081 95033 120747 XOR\n2 1 120747 120716 93001 XOR\n1 1 93001 37860 INV\n2 1 37860 93000 90996 XOR\n2 1 93001 93000 37776 XOR\n2 1 37776 90995 37775 AND\n2 1 37775 93000 37845 XOR\n1 1 37845 37779 INV\n2 1 95033 120716 37883 XOR\n2 1 37882 37883 37881 AND\n2 1 37881 120716 120717 XOR\n2 1 97082 120717 37885 XOR\n2 1 76916 120778 37972 XOR\n2 1 37972 37973 37971 AND\n2 1 37971 120778 120779 XOR\n2 1 3556 120779 37976 XOR\n2 1 90996 84852 107585 XOR\n2 1 3043 90996 107523 XOR\n2 1 80244 134037 59022 XOR\n2 1 59022 59023 59021 AND\n2 1 59021 134037 134038 XOR\n2 1 78709 134038 59026 XOR\n2 1 81780 134161 59202 XOR\n2 1 3 134161 59203 XOR\n2 1 59202 59203 59201 AND\n2 1 59201 134161 134162 XOR\n2 1 134193 134162 80245 XOR\n2 1 80245 78709 134069 XOR\n2 1 134069 134038 76917 XOR\n2 1 76917 3556 120810 XOR\n2 1 120810 120779 95034 XOR\n2 1 97082 95034 120748 XOR\n2 1 120748 120717 93002 XOR\n1 1 93002 37861 INV\n2 1 37861 37845 90997 XOR\n2 1 93002 37845 37778 XOR\n2 1 37778 37779 37777 AND\n2 1 37777 37845 37781 XOR\n2 1 95034 120717 37886 XOR\n2 1 37885 37886 37884 AND\n2 1 37884 120717 120718 XOR\n2 1 97083 120718 37888 XOR\n2 1 76917 120779 37975 XOR\n2 1 37975 37976 37974 AND\n2 1 37974 120779 120780 XOR\n2 1 3557 120780 37979 XOR\n2 1 90997 84853 107586 XOR\n2 1 80245 134038 59025 XOR\n2 1 59025 59026 59024 AND\n2 1 59024 134038 134039 XOR\n2 1 78710 134039 59029 XOR\n2 1 81781 134162 59205 XOR\n2 1 4 134162 59206 XOR\n2 1 59205 59206 59204 AND\n2 1 59204 134162 134163 XOR\n2 1 134194 134163 80246 XOR\n2 1 80246 78710 134070 XOR\n2 1 134070 134039 76918 XOR\n2 1 76918 3557 120811 XOR\n2 1 120811 120780 95035 XOR\n2 1 97083 95035 120749 XOR\n2 1 120749 120718 93003 XOR\n2 1 93003 37781 90998 XOR\n2 1 90998 37781 37780 AND\n2 1 37780 37781 37846 XOR\n1 1 37846 37784 INV\n2 1 95035 120718 37889 XOR\n2 1 37888 37889 37887 AND\n2 1 37887 120718 120719 XOR\n2 1 97084 120719 37891 XOR\n",
"2 1 76918 120780 37978 XOR\n2 1 37978 37979 37977 AND\n2 1 37977 120780 120781 XOR\n2 1 3558 120781 37982 XOR\n2 1 90998 84854 107587 XOR\n2 1 80246 134039 59028 XOR\n2 1 59028 59029 59027 AND\n2 1 59027 134039 134040 XOR\n2 1 78711 134040 59032 XOR\n2 1 81782 134163 59208 XOR\n2 1 5 134163 59209 XOR\n2 1 59208 59209 59207 AND\n2 1 59207 134163 134164 XOR\n2 1 134195 134164 80247 XOR\n2 1 80247 78711 134071 XOR\n2 1 134071 134040 76919 XOR\n2 1 76919 3558 120812 XOR\n2 1 120812 120781 95036 XOR\n2 1 97084 95036 120750 XOR\n2 1 120750 120719 93004 XOR\n1 1 93004 37862 INV\n2 1 37862 37846 90999 XOR\n2 1 93004 37846 37783 XOR\n2 1 37783 37784 37782 AND\n2 1 37782 37846 37847 XOR\n1 1 37847 37787 INV\n2 1 95036 120719 37892 XOR\n2 1 37891 37892 37890 AND\n2 1 37890 120719 120720 XOR\n2 1 97085 120720 37894 XOR\n2 1 76919 120781 37981 XOR\n2 1 37981 37982 37980 AND\n2 1 37980 120781 120782 XOR\n2 1 3559 120782 37985 XOR\n2 1 90999 84855 107588 XOR\n2 1 80247 134040 59031 XOR\n2 1 59031 59032 59030 AND\n2 1 59030 134040 134041 XOR\n2 1 78712 134041 59035 XOR\n2 1 81783 134164 59211 XOR\n2 1 6 134164 59212 XOR\n2 1 59211 59212 59210 AND\n2 1 59210 134164 134165 XOR\n2 1 134196 134165 80248 XOR\n2 1 80248 78712 134072 XOR\n2 1 134072 134041 76920 XOR\n2 1 76920 3559 120813 XOR\n2 1 120813 120782 95037 XOR\n2 1 97085 95037 120751 XOR\n2 1 120751 120720 93005 XOR\n1 1 93005 37863 INV\n2 1 37863 37847 91000 XOR\n2 1 93005 37847 37786 XOR\n2 1 37786 37787 37785 AND\n2 1 37785 37847 37848 XOR\n1 1 37848 37790 INV\n2 1 95037 120720 37895 XOR\n2 1 37894 37895 37893 AND\n2 1 37893 120720 120721 XOR\n2 1 97086 120721 37897 XOR\n2 1 76920 120782 37984 XOR\n2 1 37984 37985 37983 AND\n2 1 37983 120782 120783 XOR\n2 1 3560 120783 37988 XOR\n2 1 91000 84856 107589 XOR\n2 1 80248 134041 59034 XOR\n2 1 59034 59035 59033 AND\n2 1 59033 134041 134042 XOR\n2 1 78713 134042 59038 XOR\n2 1 81784 134165 59214 XOR\n2 1 7 134165 59215 XOR\n2 1 59214 59215 59213 AND\n2 1 59213 134165 134166 XOR\n2 1 134197 134166 80249 XOR\n2 1 80249 78713 134073 XOR\n2 1 134073 134042 76921 XOR\n2 1 76921 3560 120814 XOR\n2 1 120814 120783 95038 XOR\n2 1 97086 95038 120752 XOR\n2 1 120752 120721 93006 XOR\n1 1 93006 37864 INV\n2 1 37864 37848 91001 XOR\n2 1 93006 37848 37789 XOR\n2 1 37789 37790 37788 AND\n2 1 37788 37848 37792 XOR\n2 1 95038 120721 37898 XOR\n2 1 37897 37898 37896 AND\n2 1 37896 120721 120722 XOR\n2 1 97087 120722 37900 XOR\n2 1 76921 120783 37987 XOR\n2 1 37987 37988 37986 AND\n2 1 37986 120783 120784 XOR\n2 1 3561 120784 37991 XOR\n2 1 91001 84857 107590 XOR\n2 1 80249 134042 59037 XOR\n2 1 59037 59038 59036 AND\n2 1 59036 134042 134043 XOR\n2 1 78714 134043 59041 XOR\n2 1 81785 134166 59217 XOR\n2 1 8 134166 59218 XOR\n2 1 59217 59218 59216 AND\n2 1 59216 134166 134167 XOR\n2 1 134198 134167 80250 XOR\n2 1 80250 78714 134074 XOR\n2 1 134074 134043 76922 XOR\n2 1 76922 3561 120815 XOR\n2 1 120815 120784 95039 XOR\n2 1 97087 95039 120753 XOR\n2 1 120753 120722 93007 XOR\n2 1 93007 37792 91002 XOR\n2 1 91002 37792 37791 AND\n2 1 37791 37792 37794 XOR\n2 1 95039 120722 37901 XOR\n2 1 37900 37901 37899 AND\n2 1 37899 120722 120723 XOR\n2 1 97088 120723 37903 XOR\n2 1 76922 120784 37990 XOR\n2 1 37990 37991 37989 AND\n2 1 37989 120784 120785 XOR\n2 1 3562 120785 37994 XOR\n2 1 91002 84858 107591 XOR\n2 1 80250 134043 59040 XOR\n2 1 59040 59041 59039 AND\n2 1 59039 134043 134044 XOR\n2 1 78715 134044 59044 XOR\n2 1 81786 134167 59220 XOR\n2 1 9 134167 59221 XOR\n2 1 59220 59221 59219 AND\n",
"2 1 59219 134167 134168 XOR\n2 1 134199 134168 80251 XOR\n2 1 80251 78715 134075 XOR\n2 1 134075 134044 76923 XOR\n2 1 76923 3562 120816 XOR\n2 1 120816 120785 95040 XOR\n2 1 97088 95040 120754 XOR\n2 1 120754 120723 93008 XOR\n2 1 93008 37794 91003 XOR\n2 1 91003 37794 37793 AND\n2 1 37793 37794 37849 XOR\n1 1 37849 37797 INV\n2 1 95040 120723 37904 XOR\n2 1 37903 37904 37902 AND\n2 1 37902 120723 120724 XOR\n2 1 97089 120724 37906 XOR\n2 1 76923 120785 37993 XOR\n2 1 37993 37994 37992 AND\n2 1 37992 120785 120786 XOR\n2 1 3563 120786 37997 XOR\n2 1 91003 84859 107592 XOR\n2 1 80251 134044 59043 XOR\n2 1 59043 59044 59042 AND\n2 1 59042 134044 134045 XOR\n2 1 78716 134045 59047 XOR\n2 1 81787 134168 59223 XOR\n2 1 10 134168 59224 XOR\n2 1 59223 59224 59222 AND\n2 1 59222 134168 134169 XOR\n2 1 134200 134169 80252 XOR\n2 1 80252 78716 134076 XOR\n2 1 134076 134045 76924 XOR\n2 1 76924 3563 120817 XOR\n2 1 120817 120786 95041 XOR\n2 1 97089 95041 120755 XOR\n2 1 120755 120724 93009 XOR\n1 1 93009 37865 INV\n2 1 37865 37849 91004 XOR\n2 1 93009 37849 37796 XOR\n2 1 37796 37797 37795 AND\n2 1 37795 37849 37799 XOR\n2 1 95041 120724 37907 XOR\n2 1 37906 37907 37905 AND\n2 1 37905 120724 120725 XOR\n2 1 97090 120725 37909 XOR\n2 1 76924 120786 37996 XOR\n2 1 37996 37997 37995 AND\n2 1 37995 120786 120787 XOR\n2 1 3564 120787 38000 XOR\n2 1 3051 91004 107531 XOR\n2 1 91004 84860 107593 XOR\n2 1 80252 134045 59046 XOR\n2 1 59046 59047 59045 AND\n2 1 59045 134045 134046 XOR\n2 1 78717 134046 59050 XOR\n2 1 81788 134169 59226 XOR\n2 1 11 134169 59227 XOR\n2 1 59226 59227 59225 AND\n2 1 59225 134169 134170 XOR\n2 1 134201 134170 80253 XOR\n2 1 80253 78717 134077 XOR\n2 1 134077 134046 76925 XOR\n2 1 76925 3564 120818 XOR\n2 1 120818 120787 95042 XOR\n2 1 97090 95042 120756 XOR\n2 1 120756 120725 93010 XOR\n2 1 93010 37799 91005 XOR\n2 1 91005 37799 37798 AND\n2 1 37798 37799 37850 XOR\n1 1 37850 37802 INV\n2 1 95042 120725 37910 XOR\n2 1 37909 37910 37908 AND\n2 1 37908 120725 120726 XOR\n2 1 97091 120726 37912 XOR\n2 1 76925 120787 37999 XOR\n2 1 37999 38000 37998 AND\n2 1 37998 120787 120788 XOR\n2 1 3565 120788 38003 XOR\n2 1 3052 91005 107532 XOR\n2 1 91005 84861 107594 XOR\n2 1 80253 134046 59049 XOR\n2 1 59049 59050 59048 AND\n2 1 59048 134046 134047 XOR\n2 1 78718 134047 59053 XOR\n2 1 81789 134170 59229 XOR\n2 1 12 134170 59230 XOR\n2 1 59229 59230 59228 AND\n2 1 59228 134170 134171 XOR\n2 1 134202 134171 80254 XOR\n2 1 80254 78718 134078 XOR\n2 1 134078 134047 76926 XOR\n2 1 76926 3565 120819 XOR\n2 1 120819 120788 95043 XOR\n2 1 97091 95043 120757 XOR\n2 1 120757 120726 93011 XOR\n1 1 93011 37866 INV\n2 1 37866 37850 91006 XOR\n2 1 93011 37850 37801 XOR\n2 1 37801 37802 37800 AND\n2 1 37800 37850 37804 XOR\n2 1 95043 120726 37913 XOR\n2 1 37912 37913 37911 AND\n2 1 37911 120726 120727 XOR\n2 1 97092 120727 37915 XOR\n2 1 76926 120788 38002 XOR\n2 1 38002 38003 38001 AND\n2 1 38001 120788 120789 XOR\n2 1 3566 120789 38006 XOR\n2 1 3053 91006 107533 XOR\n2 1 91006 84862 107595 XOR\n2 1 80254 134047 59052 XOR\n2 1 59052 59053 59051 AND\n2 1 59051 134047 134048 XOR\n2 1 78719 134048 59056 XOR\n2 1 81790 134171 59232 XOR\n2 1 13 134171 59233 XOR\n2 1 59232 59233 59231 AND\n2 1 59231 134171 134172 XOR\n2 1 134203 134172 80255 XOR\n2 1 80255 78719 134079 XOR\n2 1 134079 134048 76927 XOR\n2 1 76927 3566 120820 XOR\n2 1 120820 120789 95044 XOR\n2 1 97092 95044 120758 XOR\n2 1 120758 120727 93012 XOR\n2 1 93012 37804 91007 XOR\n2 1 91007 37804 37803 AND\n2 1 37803 37804 37851 XOR\n",
"1 1 37851 37807 INV\n2 1 95044 120727 37916 XOR\n2 1 37915 37916 37914 AND\n2 1 37914 120727 120728 XOR\n2 1 97093 120728 37918 XOR\n2 1 76927 120789 38005 XOR\n2 1 38005 38006 38004 AND\n2 1 38004 120789 120790 XOR\n2 1 3567 120790 38009 XOR\n2 1 3054 91007 107534 XOR\n2 1 91007 84863 107596 XOR\n2 1 80255 134048 59055 XOR\n2 1 59055 59056 59054 AND\n2 1 59054 134048 134049 XOR\n2 1 78720 134049 59059 XOR\n2 1 81791 134172 59235 XOR\n2 1 14 134172 59236 XOR\n2 1 59235 59236 59234 AND\n2 1 59234 134172 134173 XOR\n2 1 134204 134173 80256 XOR\n2 1 80256 78720 134080 XOR\n2 1 134080 134049 76928 XOR\n2 1 76928 3567 120821 XOR\n2 1 120821 120790 95045 XOR\n2 1 97093 95045 120759 XOR\n2 1 120759 120728 93013 XOR\n1 1 93013 37867 INV\n2 1 37867 37851 91008 XOR\n2 1 93013 37851 37806 XOR\n2 1 37806 37807 37805 AND\n2 1 37805 37851 37809 XOR\n2 1 95045 120728 37919 XOR\n2 1 37918 37919 37917 AND\n2 1 37917 120728 120729 XOR\n2 1 97094 120729 37921 XOR\n2 1 76928 120790 38008 XOR\n2 1 38008 38009 38007 AND\n2 1 38007 120790 120791 XOR\n2 1 3568 120791 38012 XOR\n2 1 3055 91008 107535 XOR\n2 1 91008 84864 107597 XOR\n2 1 80256 134049 59058 XOR\n2 1 59058 59059 59057 AND\n2 1 59057 134049 134050 XOR\n2 1 78721 134050 59062 XOR\n2 1 81792 134173 59238 XOR\n2 1 15 134173 59239 XOR\n2 1 59238 59239 59237 AND\n2 1 59237 134173 134174 XOR\n2 1 134205 134174 80257 XOR\n2 1 80257 78721 134081 XOR\n2 1 134081 134050 76929 XOR\n2 1 76929 3568 120822 XOR\n2 1 120822 120791 95046 XOR\n2 1 97094 95046 120760 XOR\n2 1 120760 120729 93014 XOR\n2 1 93014 37809 91009 XOR\n2 1 91009 37809 37808 AND\n2 1 37808 37809 37811 XOR\n2 1 95046 120729 37922 XOR\n2 1 37921 37922 37920 AND\n2 1 37920 120729 120730 XOR\n2 1 97095 120730 37924 XOR\n2 1 76929 120791 38011 XOR\n2 1 38011 38012 38010 AND\n2 1 38010 120791 120792 XOR\n2 1 3569 120792 38015 XOR\n2 1 3056 91009 107536 XOR\n2 1 91009 84865 107598 XOR\n2 1 80257 134050 59061 XOR\n2 1 59061 59062 59060 AND\n2 1 59060 134050 134051 XOR\n2 1 78722 134051 59065 XOR\n2 1 81793 134174 59241 XOR\n2 1 16 134174 59242 XOR\n2 1 59241 59242 59240 AND\n2 1 59240 134174 134175 XOR\n2 1 134206 134175 80258 XOR\n2 1 80258 78722 134082 XOR\n2 1 134082 134051 76930 XOR\n2 1 76930 3569 120823 XOR\n2 1 120823 120792 95047 XOR\n2 1 97095 95047 120761 XOR\n2 1 120761 120730 93015 XOR\n2 1 93015 37811 91010 XOR\n2 1 91010 37811 37810 AND\n2 1 37810 37811 37813 XOR\n2 1 95047 120730 37925 XOR\n2 1 37924 37925 37923 AND\n2 1 37923 120730 120731 XOR\n2 1 97096 120731 37927 XOR\n2 1 76930 120792 38014 XOR\n2 1 38014 38015 38013 AND\n2 1 38013 120792 120793 XOR\n2 1 3570 120793 38018 XOR\n2 1 3057 91010 107537 XOR\n2 1 91010 84866 107599 XOR\n2 1 80258 134051 59064 XOR\n2 1 59064 59065 59063 AND\n2 1 59063 134051 134052 XOR\n2 1 78723 134052 59068 XOR\n2 1 81794 134175 59244 XOR\n2 1 17 134175 59245 XOR\n2 1 59244 59245 59243 AND\n2 1 59243 134175 134176 XOR\n2 1 134207 134176 80259 XOR\n2 1 80259 78723 134083 XOR\n2 1 134083 134052 76931 XOR\n2 1 76931 3570 120824 XOR\n2 1 120824 120793 95048 XOR\n2 1 97096 95048 120762 XOR\n2 1 120762 120731 93016 XOR\n2 1 93016 37813 91011 XOR\n2 1 91011 37813 37812 AND\n2 1 37812 37813 37815 XOR\n2 1 95048 120731 37928 XOR\n2 1 37927 37928 37926 AND\n2 1 37926 120731 120732 XOR\n2 1 97097 120732 37930 XOR\n2 1 76931 120793 38017 XOR\n2 1 38017 38018 38016 AND\n2 1 38016 120793 120794 XOR\n2 1 3571 120794 38021 XOR\n2 1 3058 91011 107538 XOR\n2 1 91011 84867 107600 XOR\n2 1 80259 134052 59067 XOR\n2 1 59067 59068 59066 AND\n2 1 59066 134052 134053 XOR\n",
"2 1 78724 134053 59071 XOR\n2 1 81795 134176 59247 XOR\n2 1 18 134176 59248 XOR\n2 1 59247 59248 59246 AND\n2 1 59246 134176 134177 XOR\n2 1 134208 134177 80260 XOR\n2 1 80260 78724 134084 XOR\n2 1 134084 134053 76932 XOR\n2 1 76932 3571 120825 XOR\n2 1 120825 120794 95049 XOR\n2 1 97097 95049 120763 XOR\n2 1 120763 120732 93017 XOR\n2 1 93017 37815 91012 XOR\n2 1 91012 37815 37814 AND\n2 1 37814 37815 37852 XOR\n1 1 37852 37818 INV\n2 1 95049 120732 37931 XOR\n2 1 37930 37931 37929 AND\n2 1 37929 120732 120733 XOR\n2 1 97098 120733 37933 XOR\n2 1 76932 120794 38020 XOR\n2 1 38020 38021 38019 AND\n2 1 38019 120794 120795 XOR\n2 1 3572 120795 38024 XOR\n2 1 3059 91012 107539 XOR\n2 1 91012 84868 107601 XOR\n2 1 80260 134053 59070 XOR\n2 1 59070 59071 59069 AND\n2 1 59069 134053 134054 XOR\n2 1 78725 134054 59074 XOR\n2 1 81796 134177 59250 XOR\n2 1 19 134177 59251 XOR\n2 1 59250 59251 59249 AND\n2 1 59249 134177 134178 XOR\n2 1 134209 134178 80261 XOR\n2 1 80261 78725 134085 XOR\n2 1 134085 134054 76933 XOR\n2 1 76933 3572 120826 XOR\n2 1 120826 120795 95050 XOR\n2 1 97098 95050 120764 XOR\n2 1 120764 120733 93018 XOR\n1 1 93018 37868 INV\n2 1 37868 37852 91013 XOR\n2 1 93018 37852 37817 XOR\n2 1 37817 37818 37816 AND\n2 1 37816 37852 37853 XOR\n1 1 37853 37821 INV\n2 1 95050 120733 37934 XOR\n2 1 37933 37934 37932 AND\n2 1 37932 120733 120734 XOR\n2 1 97099 120734 37936 XOR\n2 1 76933 120795 38023 XOR\n2 1 38023 38024 38022 AND\n2 1 38022 120795 120796 XOR\n2 1 3573 120796 38027 XOR\n2 1 3060 91013 107540 XOR\n2 1 91013 84869 107602 XOR\n2 1 80261 134054 59073 XOR\n2 1 59073 59074 59072 AND\n2 1 59072 134054 134055 XOR\n2 1 78726 134055 59077 XOR\n2 1 81797 134178 59253 XOR\n2 1 20 134178 59254 XOR\n2 1 59253 59254 59252 AND\n2 1 59252 134178 134179 XOR\n2 1 134210 134179 80262 XOR\n2 1 80262 78726 134086 XOR\n2 1 134086 134055 76934 XOR\n2 1 76934 3573 120827 XOR\n2 1 120827 120796 95051 XOR\n2 1 97099 95051 120765 XOR\n2 1 120765 120734 93019 XOR\n1 1 93019 37869 INV\n2 1 37869 37853 91014 XOR\n2 1 93019 37853 37820 XOR\n2 1 37820 37821 37819 AND\n2 1 37819 37853 37823 XOR\n2 1 95051 120734 37937 XOR\n2 1 37936 37937 37935 AND\n2 1 37935 120734 120735 XOR\n2 1 97100 120735 37939 XOR\n2 1 76934 120796 38026 XOR\n2 1 38026 38027 38025 AND\n2 1 38025 120796 120797 XOR\n2 1 3574 120797 38030 XOR\n2 1 3061 91014 107541 XOR\n2 1 91014 84870 107603 XOR\n2 1 80262 134055 59076 XOR\n2 1 59076 59077 59075 AND\n2 1 59075 134055 134056 XOR\n2 1 78727 134056 59080 XOR\n2 1 81798 134179 59256 XOR\n2 1 21 134179 59257 XOR\n2 1 59256 59257 59255 AND\n2 1 59255 134179 134180 XOR\n2 1 134211 134180 80263 XOR\n2 1 80263 78727 134087 XOR\n2 1 134087 134056 76935 XOR\n2 1 76935 3574 120828 XOR\n2 1 120828 120797 95052 XOR\n2 1 97100 95052 120766 XOR\n2 1 120766 120735 93020 XOR\n2 1 93020 37823 91015 XOR\n2 1 91015 37823 37822 AND\n2 1 37822 37823 37854 XOR\n1 1 37854 37826 INV\n2 1 95052 120735 37940 XOR\n2 1 37939 37940 37938 AND\n2 1 37938 120735 120736 XOR\n2 1 97101 120736 37942 XOR\n2 1 76935 120797 38029 XOR\n2 1 38029 38030 38028 AND\n2 1 38028 120797 120798 XOR\n2 1 3575 120798 38033 XOR\n2 1 3062 91015 107542 XOR\n2 1 80263 134056 59079 XOR\n2 1 59079 59080 59078 AND\n2 1 59078 134056 134057 XOR\n2 1 78728 134057 59083 XOR\n2 1 81799 134180 59259 XOR\n2 1 22 134180 59260 XOR\n2 1 59259 59260 59258 AND\n2 1 59258 134180 134181 XOR\n2 1 134212 134181 80264 XOR\n2 1 80264 78728 134088 XOR\n2 1 134088 134057 76936 XOR\n2 1 76936 3575 120829 XOR\n2 1 120829 120798 95053 XOR\n",
"2 1 97101 95053 120767 XOR\n2 1 120767 120736 93021 XOR\n1 1 93021 37870 INV\n2 1 37870 37854 91016 XOR\n2 1 93021 37854 37825 XOR\n2 1 37825 37826 37824 AND\n2 1 37824 37854 37828 XOR\n2 1 95053 120736 37943 XOR\n2 1 37942 37943 37941 AND\n2 1 37941 120736 120737 XOR\n2 1 97102 120737 37945 XOR\n2 1 76936 120798 38032 XOR\n2 1 38032 38033 38031 AND\n2 1 38031 120798 120799 XOR\n2 1 3576 120799 38036 XOR\n2 1 3063 91016 107543 XOR\n2 1 80264 134057 59082 XOR\n2 1 59082 59083 59081 AND\n2 1 59081 134057 134058 XOR\n2 1 78729 134058 59086 XOR\n2 1 81800 134181 59262 XOR\n2 1 23 134181 59263 XOR\n2 1 59262 59263 59261 AND\n2 1 59261 134181 134182 XOR\n2 1 134213 134182 80265 XOR\n2 1 80265 78729 134089 XOR\n2 1 134089 134058 76937 XOR\n2 1 76937 3576 120830 XOR\n2 1 120830 120799 95054 XOR\n2 1 97102 95054 120768 XOR\n2 1 120768 120737 93022 XOR\n2 1 93022 37828 91017 XOR\n2 1 91017 37828 37827 AND\n2 1 37827 37828 37830 XOR\n2 1 95054 120737 37946 XOR\n2 1 37945 37946 37944 AND\n2 1 37944 120737 120738 XOR\n2 1 97103 120738 37948 XOR\n2 1 76937 120799 38035 XOR\n2 1 38035 38036 38034 AND\n2 1 38034 120799 120800 XOR\n2 1 3577 120800 38039 XOR\n2 1 3064 91017 107544 XOR\n2 1 80265 134058 59085 XOR\n2 1 59085 59086 59084 AND\n2 1 59084 134058 134059 XOR\n2 1 78730 134059 59089 XOR\n2 1 81801 134182 59265 XOR\n2 1 24 134182 59266 XOR\n2 1 59265 59266 59264 AND\n2 1 59264 134182 134183 XOR\n2 1 134214 134183 80266 XOR\n2 1 80266 78730 134090 XOR\n2 1 134090 134059 76938 XOR\n2 1 76938 3577 120831 XOR\n2 1 120831 120800 95055 XOR\n2 1 97103 95055 120769 XOR\n2 1 120769 120738 93023 XOR\n2 1 93023 37830 91018 XOR\n2 1 91018 37830 37829 AND\n2 1 37829 37830 37855 XOR\n1 1 37855 37833 INV\n2 1 95055 120738 37949 XOR\n2 1 37948 37949 37947 AND\n2 1 37947 120738 120739 XOR\n2 1 97104 120739 37951 XOR\n2 1 76938 120800 38038 XOR\n2 1 38038 38039 38037 AND\n2 1 38037 120800 120801 XOR\n2 1 3578 120801 38042 XOR\n2 1 3065 91018 107545 XOR\n2 1 80266 134059 59088 XOR\n2 1 59088 59089 59087 AND\n2 1 59087 134059 134060 XOR\n2 1 78731 134060 59092 XOR\n2 1 81802 134183 59268 XOR\n2 1 25 134183 59269 XOR\n2 1 59268 59269 59267 AND\n2 1 59267 134183 134184 XOR\n2 1 134215 134184 80267 XOR\n2 1 80267 78731 134091 XOR\n2 1 134091 134060 76939 XOR\n2 1 76939 3578 120832 XOR\n2 1 120832 120801 95056 XOR\n2 1 97104 95056 120770 XOR\n2 1 120770 120739 93024 XOR\n1 1 93024 37871 INV\n2 1 37871 37855 91019 XOR\n2 1 93024 37855 37832 XOR\n2 1 37832 37833 37831 AND\n2 1 37831 37855 37856 XOR\n1 1 37856 37836 INV\n2 1 95056 120739 37952 XOR\n2 1 37951 37952 37950 AND\n2 1 37950 120739 120740 XOR\n2 1 97105 120740 37954 XOR\n2 1 76939 120801 38041 XOR\n2 1 38041 38042 38040 AND\n2 1 38040 120801 120802 XOR\n2 1 3579 120802 38045 XOR\n2 1 3066 91019 107546 XOR\n2 1 80267 134060 59091 XOR\n2 1 59091 59092 59090 AND\n2 1 59090 134060 134061 XOR\n2 1 78732 134061 59095 XOR\n2 1 81803 134184 59271 XOR\n2 1 26 134184 59272 XOR\n2 1 59271 59272 59270 AND\n2 1 59270 134184 134185 XOR\n2 1 134216 134185 80268 XOR\n2 1 80268 78732 134092 XOR\n2 1 134092 134061 76940 XOR\n2 1 76940 3579 120833 XOR\n2 1 120833 120802 95057 XOR\n2 1 97105 95057 120771 XOR\n2 1 120771 120740 93025 XOR\n1 1 93025 37872 INV\n2 1 37872 37856 91020 XOR\n2 1 93025 37856 37835 XOR\n2 1 37835 37836 37834 AND\n2 1 37834 37856 37857 XOR\n1 1 37857 37839 INV\n2 1 95057 120740 37955 XOR\n2 1 37954 37955 37953 AND\n2 1 37953 120740 120741 XOR\n2 1 97106 120741 37957 XOR\n2 1 76940 120802 38044 XOR\n2 1 38044 38045 38043 AND\n",
"2 1 38043 120802 120803 XOR\n2 1 3580 120803 38048 XOR\n2 1 3067 91020 107547 XOR\n2 1 80268 134061 59094 XOR\n2 1 59094 59095 59093 AND\n2 1 59093 134061 134062 XOR\n2 1 78733 134062 59098 XOR\n2 1 81804 134185 59274 XOR\n2 1 27 134185 59275 XOR\n2 1 59274 59275 59273 AND\n2 1 59273 134185 134186 XOR\n2 1 134217 134186 80269 XOR\n2 1 80269 78733 134093 XOR\n2 1 134093 134062 76941 XOR\n2 1 76941 3580 120834 XOR\n2 1 120834 120803 95058 XOR\n2 1 97106 95058 120772 XOR\n2 1 120772 120741 93026 XOR\n1 1 93026 37873 INV\n2 1 37873 37857 91021 XOR\n2 1 93026 37857 37838 XOR\n2 1 37838 37839 37837 AND\n2 1 37837 37857 37841 XOR\n2 1 95058 120741 37958 XOR\n2 1 37957 37958 37956 AND\n2 1 37956 120741 120742 XOR\n2 1 97107 120742 37960 XOR\n2 1 76941 120803 38047 XOR\n2 1 38047 38048 38046 AND\n2 1 38046 120803 120804 XOR\n2 1 3581 120804 38051 XOR\n2 1 3068 91021 107548 XOR\n2 1 80269 134062 59097 XOR\n2 1 59097 59098 59096 AND\n2 1 59096 134062 134063 XOR\n2 1 78734 134063 59101 XOR\n2 1 81805 134186 59277 XOR\n2 1 28 134186 59278 XOR\n2 1 59277 59278 59276 AND\n2 1 59276 134186 134187 XOR\n2 1 134218 134187 80270 XOR\n2 1 80270 78734 134094 XOR\n2 1 134094 134063 76942 XOR\n2 1 76942 3581 120835 XOR\n2 1 120835 120804 95059 XOR\n2 1 97107 95059 120773 XOR\n2 1 120773 120742 93027 XOR\n2 1 93027 37841 91022 XOR\n2 1 91022 37841 37840 AND\n2 1 37840 37841 37858 XOR\n1 1 37858 37844 INV\n2 1 95059 120742 37961 XOR\n2 1 37960 37961 37959 AND\n2 1 37959 120742 120743 XOR\n2 1 97108 120743 37963 XOR\n2 1 76942 120804 38050 XOR\n2 1 38050 38051 38049 AND\n2 1 38049 120804 120805 XOR\n2 1 3582 120805 38054 XOR\n2 1 91022 84878 107611 XOR\n2 1 3069 91022 107549 XOR\n2 1 80270 134063 59100 XOR\n2 1 59100 59101 59099 AND\n2 1 59099 134063 134064 XOR\n2 1 78735 134064 59104 XOR\n2 1 81806 134187 59280 XOR\n2 1 29 134187 59281 XOR\n2 1 59280 59281 59279 AND\n2 1 59279 134187 134188 XOR\n2 1 134219 134188 80271 XOR\n2 1 80271 78735 134095 XOR\n2 1 134095 134064 76943 XOR\n2 1 76943 3582 120836 XOR\n2 1 120836 120805 95060 XOR\n2 1 97108 95060 120774 XOR\n2 1 120774 120743 93028 XOR\n1 1 93028 37874 INV\n2 1 37874 37858 91023 XOR\n2 1 93028 37858 37843 XOR\n2 1 37843 37844 37842 AND\n2 1 37842 37858 37859 XOR\n2 1 95060 120743 37964 XOR\n2 1 37963 37964 37962 AND\n2 1 37962 120743 120744 XOR\n2 1 76943 120805 38053 XOR\n2 1 38053 38054 38052 AND\n2 1 38052 120805 120806 XOR\n2 1 3070 91023 107550 XOR\n2 1 80271 134064 59103 XOR\n2 1 59103 59104 59102 AND\n2 1 59102 134064 134065 XOR\n2 1 81807 134188 59283 XOR\n2 1 30 134188 59284 XOR\n2 1 59283 59284 59282 AND\n2 1 59282 134188 134189 XOR\n2 1 134220 134189 80272 XOR\n2 1 80272 78736 134096 XOR\n2 1 134096 134065 76944 XOR\n2 1 76944 3583 120837 XOR\n2 1 120837 120806 95061 XOR\n2 1 97109 95061 120775 XOR\n2 1 120775 120744 93029 XOR\n2 1 93029 37859 91024 XOR\n2 1 91024 84880 107613 XOR\n2 1 3071 91024 107551 XOR\n2 1 91023 84879 107612 XOR\n2 1 91020 84876 107609 XOR\n2 1 90993 84849 2912 XOR\n2 1 91015 84871 107604 XOR\n2 1 91021 84877 107610 XOR\n2 1 2913 2977 72656 XOR\n2 1 2912 2976 72655 XOR\n2 1 72656 72624 72592 AND\n2 1 72655 72623 72591 AND\n2 1 72592 2977 86866 XOR\n2 1 72591 2976 86865 XOR\n2 1 2913 2945 72528 XOR\n2 1 2912 2944 72527 XOR\n2 1 15246 107552 107553 XOR\n2 1 107584 107553 2914 XOR\n2 1 84851 107553 15251 XOR\n2 1 90995 107553 15250 XOR\n2 1 15250 15251 15249 AND\n2 1 15249 107553 107554 XOR\n2 1 107585 107554 2915 XOR\n2 1 90996 107554 15253 XOR\n2 1 84852 107554 15254 XOR\n2 1 15253 15254 15252 AND\n",
"2 1 15252 107554 107555 XOR\n2 1 90997 107555 15256 XOR\n2 1 107586 107555 2916 XOR\n2 1 84853 107555 15257 XOR\n2 1 15256 15257 15255 AND\n2 1 15255 107555 107556 XOR\n2 1 107587 107556 2917 XOR\n2 1 90998 107556 15259 XOR\n2 1 2917 2981 72660 XOR\n2 1 2916 2980 72659 XOR\n2 1 2915 2979 72658 XOR\n2 1 2914 2978 72657 XOR\n2 1 72660 72628 72596 AND\n2 1 72659 72627 72595 AND\n2 1 72658 72626 72594 AND\n2 1 72657 72625 72593 AND\n2 1 72596 2981 86870 XOR\n2 1 72595 2980 86869 XOR\n2 1 72594 2979 86868 XOR\n2 1 72593 2978 86867 XOR\n2 1 2917 2949 72532 XOR\n2 1 2916 2948 72531 XOR\n2 1 2915 2947 72530 XOR\n2 1 2914 2946 72529 XOR\n2 1 3044 90997 107524 XOR\n2 1 107522 107491 3426 XOR\n2 1 84854 107556 15260 XOR\n2 1 15259 15260 15258 AND\n2 1 15258 107556 107557 XOR\n2 1 107588 107557 2918 XOR\n2 1 84855 107557 15263 XOR\n2 1 2918 2982 72661 XOR\n2 1 72661 72629 72597 AND\n2 1 72597 2982 86871 XOR\n2 1 2918 2950 72533 XOR\n2 1 90999 107557 15262 XOR\n2 1 15262 15263 15261 AND\n2 1 3045 90998 107525 XOR\n2 1 3048 91001 107528 XOR\n2 1 3047 91000 107527 XOR\n2 1 3046 90999 107526 XOR\n2 1 90995 107491 15161 XOR\n2 1 3042 107491 15160 XOR\n2 1 3049 91002 107529 XOR\n2 1 15160 15161 15159 AND\n2 1 15159 107491 107492 XOR\n2 1 90996 107492 15164 XOR\n2 1 107523 107492 3427 XOR\n2 1 91016 84872 107605 XOR\n2 1 91019 84875 107608 XOR\n2 1 91018 84874 107607 XOR\n2 1 65426 3427 65394 AND\n2 1 65425 3426 65393 AND\n2 1 65424 3425 65392 AND\n2 1 65423 3424 65391 AND\n2 1 65394 3491 99097 XOR\n2 1 65393 3490 99096 XOR\n2 1 65392 3489 99095 XOR\n2 1 65391 3488 99094 XOR\n2 1 3427 3459 65362 XOR\n2 1 3426 3458 65361 XOR\n2 1 3425 3457 65360 XOR\n2 1 3424 3456 65359 XOR\n2 1 91017 84873 107606 XOR\n2 1 15261 107557 107558 XOR\n2 1 91000 107558 15265 XOR\n2 1 84856 107558 15266 XOR\n2 1 15265 15266 15264 AND\n2 1 15264 107558 107559 XOR\n2 1 107590 107559 2920 XOR\n2 1 84857 107559 15269 XOR\n2 1 91001 107559 15268 XOR\n2 1 15268 15269 15267 AND\n2 1 15267 107559 107560 XOR\n2 1 107591 107560 2921 XOR\n2 1 91002 107560 15271 XOR\n2 1 84858 107560 15272 XOR\n2 1 15271 15272 15270 AND\n2 1 15270 107560 107561 XOR\n2 1 84859 107561 15275 XOR\n2 1 107592 107561 2922 XOR\n2 1 91003 107561 15274 XOR\n2 1 15274 15275 15273 AND\n2 1 15273 107561 107562 XOR\n2 1 107593 107562 2923 XOR\n2 1 91004 107562 15277 XOR\n2 1 2923 2987 72666 XOR\n2 1 2922 2986 72665 XOR\n2 1 2921 2985 72664 XOR\n2 1 2920 2984 72663 XOR\n2 1 72666 72634 72602 AND\n2 1 72665 72633 72601 AND\n2 1 72664 72632 72600 AND\n2 1 72663 72631 72599 AND\n2 1 72602 2987 86876 XOR\n2 1 72601 2986 86875 XOR\n2 1 72600 2985 86874 XOR\n2 1 72599 2984 86873 XOR\n2 1 2923 2955 72538 XOR\n2 1 2922 2954 72537 XOR\n2 1 2921 2953 72536 XOR\n2 1 2920 2952 72535 XOR\n2 1 107589 107558 2919 XOR\n2 1 2919 2983 72662 XOR\n2 1 72662 72630 72598 AND\n2 1 72598 2983 86872 XOR\n2 1 2919 2951 72534 XOR\n2 1 2912 2923 68045 XOR\n2 1 3050 91003 107530 XOR\n2 1 84860 107562 15278 XOR\n2 1 15277 15278 15276 AND\n2 1 15276 107562 107563 XOR\n2 1 107594 107563 2924 XOR\n2 1 91005 107563 15280 XOR\n2 1 84861 107563 15281 XOR\n2 1 15280 15281 15279 AND\n2 1 15279 107563 107564 XOR\n2 1 107595 107564 2925 XOR\n2 1 91006 107564 15283 XOR\n2 1 84862 107564 15284 XOR\n2 1 15283 15284 15282 AND\n2 1 15282 107564 107565 XOR\n2 1 107596 107565 2926 XOR\n2 1 91007 107565 15286 XOR\n2 1 84863 107565 15287 XOR\n2 1 15286 15287 15285 AND\n2 1 15285 107565 107566 XOR\n2 1 107597 107566 2927 XOR\n",
"2 1 91008 107566 15289 XOR\n2 1 84864 107566 15290 XOR\n2 1 15289 15290 15288 AND\n2 1 15288 107566 107567 XOR\n2 1 107598 107567 2928 XOR\n2 1 91009 107567 15292 XOR\n2 1 84865 107567 15293 XOR\n2 1 15292 15293 15291 AND\n2 1 15291 107567 107568 XOR\n2 1 107599 107568 2929 XOR\n2 1 91010 107568 15295 XOR\n2 1 84866 107568 15296 XOR\n2 1 15295 15296 15294 AND\n2 1 15294 107568 107569 XOR\n2 1 107600 107569 2930 XOR\n2 1 91011 107569 15298 XOR\n2 1 84867 107569 15299 XOR\n2 1 15298 15299 15297 AND\n2 1 15297 107569 107570 XOR\n2 1 107601 107570 2931 XOR\n2 1 91012 107570 15301 XOR\n2 1 84868 107570 15302 XOR\n2 1 15301 15302 15300 AND\n2 1 15300 107570 107571 XOR\n2 1 107602 107571 2932 XOR\n2 1 91013 107571 15304 XOR\n2 1 84869 107571 15305 XOR\n2 1 15304 15305 15303 AND\n2 1 15303 107571 107572 XOR\n2 1 107603 107572 2933 XOR\n2 1 91014 107572 15307 XOR\n2 1 84870 107572 15308 XOR\n2 1 15307 15308 15306 AND\n2 1 15306 107572 107573 XOR\n2 1 107604 107573 2934 XOR\n2 1 91015 107573 15310 XOR\n2 1 84871 107573 15311 XOR\n2 1 15310 15311 15309 AND\n2 1 15309 107573 107574 XOR\n2 1 107605 107574 2935 XOR\n2 1 91016 107574 15313 XOR\n2 1 84872 107574 15314 XOR\n2 1 15313 15314 15312 AND\n2 1 15312 107574 107575 XOR\n2 1 107606 107575 2936 XOR\n2 1 91017 107575 15316 XOR\n2 1 84873 107575 15317 XOR\n2 1 15316 15317 15315 AND\n2 1 15315 107575 107576 XOR\n2 1 107607 107576 2937 XOR\n2 1 91018 107576 15319 XOR\n2 1 84874 107576 15320 XOR\n2 1 15319 15320 15318 AND\n2 1 15318 107576 107577 XOR\n2 1 107608 107577 2938 XOR\n2 1 91019 107577 15322 XOR\n2 1 84875 107577 15323 XOR\n2 1 15322 15323 15321 AND\n2 1 15321 107577 107578 XOR\n2 1 107609 107578 2939 XOR\n2 1 91020 107578 15325 XOR\n2 1 84876 107578 15326 XOR\n2 1 15325 15326 15324 AND\n2 1 15324 107578 107579 XOR\n2 1 107610 107579 2940 XOR\n2 1 91021 107579 15328 XOR\n2 1 84877 107579 15329 XOR\n2 1 15328 15329 15327 AND\n2 1 15327 107579 107580 XOR\n2 1 107611 107580 2941 XOR\n2 1 91022 107580 15331 XOR\n2 1 84878 107580 15332 XOR\n2 1 15331 15332 15330 AND\n2 1 15330 107580 107581 XOR\n2 1 107612 107581 2942 XOR\n2 1 91023 107581 15334 XOR\n2 1 84879 107581 15335 XOR\n2 1 15334 15335 15333 AND\n2 1 15333 107581 107582 XOR\n2 1 107613 107582 2943 XOR\n2 1 2943 3007 72686 XOR\n2 1 2942 3006 72685 XOR\n2 1 2941 3005 72684 XOR\n2 1 2940 3004 72683 XOR\n2 1 2939 3003 72682 XOR\n2 1 2938 3002 72681 XOR\n2 1 2937 3001 72680 XOR\n2 1 2936 3000 72679 XOR\n2 1 2935 2999 72678 XOR\n2 1 2934 2998 72677 XOR\n2 1 2933 2997 72676 XOR\n2 1 2932 2996 72675 XOR\n2 1 2931 2995 72674 XOR\n2 1 2930 2994 72673 XOR\n2 1 2929 2993 72672 XOR\n2 1 2928 2992 72671 XOR\n2 1 2927 2991 72670 XOR\n2 1 2926 2990 72669 XOR\n2 1 2925 2989 72668 XOR\n2 1 2924 2988 72667 XOR\n2 1 72686 72654 72622 AND\n2 1 72685 72653 72621 AND\n2 1 72684 72652 72620 AND\n2 1 72683 72651 72619 AND\n2 1 72682 72650 72618 AND\n2 1 72681 72649 72617 AND\n2 1 72680 72648 72616 AND\n2 1 72679 72647 72615 AND\n2 1 72678 72646 72614 AND\n2 1 72677 72645 72613 AND\n2 1 72676 72644 72612 AND\n2 1 72675 72643 72611 AND\n2 1 72674 72642 72610 AND\n2 1 72673 72641 72609 AND\n2 1 72672 72640 72608 AND\n2 1 72671 72639 72607 AND\n2 1 72670 72638 72606 AND\n2 1 72669 72637 72605 AND\n2 1 72668 72636 72604 AND\n2 1 72667 72635 72603 AND\n2 1 72622 3007 86896 XOR\n2 1 72621 3006 86895 XOR\n2 1 72620 3005 86894 XOR\n2 1 72619 3004 86893 XOR\n2 1 72618 3003 86892 XOR\n2 1 72617 3002 86891 XOR\n2 1 72616 3001 86890 XOR\n2 1 72615 3000 86889 XOR\n",
"2 1 72614 2999 86888 XOR\n2 1 72613 2998 86887 XOR\n2 1 72612 2997 86886 XOR\n2 1 72611 2996 86885 XOR\n2 1 72610 2995 86884 XOR\n2 1 72609 2994 86883 XOR\n2 1 72608 2993 86882 XOR\n2 1 72607 2992 86881 XOR\n2 1 72606 2991 86880 XOR\n2 1 72605 2990 86879 XOR\n2 1 72604 2989 86878 XOR\n2 1 72603 2988 86877 XOR\n2 1 2943 2975 72558 XOR\n2 1 2942 2974 72557 XOR\n2 1 2941 2973 72556 XOR\n2 1 2940 2972 72555 XOR\n2 1 2939 2971 72554 XOR\n2 1 2938 2970 72553 XOR\n2 1 2937 2969 72552 XOR\n2 1 2936 2968 72551 XOR\n2 1 2935 2967 72550 XOR\n2 1 2934 2966 72549 XOR\n2 1 2933 2965 72548 XOR\n2 1 2932 2964 72547 XOR\n2 1 2931 2963 72546 XOR\n2 1 2930 2962 72545 XOR\n2 1 2929 2961 72544 XOR\n2 1 2928 2960 72543 XOR\n2 1 2927 2959 72542 XOR\n2 1 2926 2958 72541 XOR\n2 1 2925 2957 72540 XOR\n2 1 2924 2956 72539 XOR\n2 1 2913 2924 68046 XOR\n2 1 2943 2922 68044 XOR\n2 1 2942 2921 68043 XOR\n2 1 2941 2920 68042 XOR\n2 1 2940 2919 68041 XOR\n2 1 2939 2918 68040 XOR\n2 1 2938 2917 68039 XOR\n2 1 2937 2916 68038 XOR\n2 1 2936 2915 68037 XOR\n2 1 2935 2914 68036 XOR\n2 1 2934 2913 68035 XOR\n2 1 2933 2912 68034 XOR\n2 1 2932 2943 68033 XOR\n2 1 2931 2942 68032 XOR\n2 1 2930 2941 68031 XOR\n2 1 2929 2940 68030 XOR\n2 1 2928 2939 68029 XOR\n2 1 2927 2938 68028 XOR\n2 1 2926 2937 68027 XOR\n2 1 2925 2936 68026 XOR\n2 1 2924 2935 68025 XOR\n2 1 2923 2934 68024 XOR\n2 1 2922 2933 68023 XOR\n2 1 2921 2932 68022 XOR\n2 1 2920 2931 68021 XOR\n2 1 2919 2930 68020 XOR\n2 1 2918 2929 68019 XOR\n2 1 2917 2928 68018 XOR\n2 1 2916 2927 68017 XOR\n2 1 2915 2926 68016 XOR\n2 1 2914 2925 68015 XOR\n2 1 68046 2933 88944 XOR\n2 1 88944 86896 120447 XOR\n2 1 68045 2932 88943 XOR\n2 1 88943 86895 120446 XOR\n2 1 68044 2931 88942 XOR\n2 1 88942 86894 120445 XOR\n2 1 68043 2930 88941 XOR\n2 1 88941 86893 120444 XOR\n2 1 68042 2929 88940 XOR\n2 1 88940 86892 120443 XOR\n2 1 68041 2928 88939 XOR\n2 1 88939 86891 120442 XOR\n2 1 68040 2927 88938 XOR\n2 1 88938 86890 120441 XOR\n2 1 68039 2926 88937 XOR\n2 1 88937 86889 120440 XOR\n2 1 68038 2925 88936 XOR\n2 1 88936 86888 120439 XOR\n2 1 68037 2924 88935 XOR\n2 1 88935 86887 120438 XOR\n2 1 68036 2923 88934 XOR\n2 1 88934 86886 120437 XOR\n2 1 68035 2922 88933 XOR\n2 1 88933 86885 120436 XOR\n2 1 68034 2921 88932 XOR\n2 1 88932 86884 120435 XOR\n2 1 68033 2920 88931 XOR\n2 1 88931 86883 120434 XOR\n2 1 68032 2919 88930 XOR\n2 1 88930 86882 120433 XOR\n2 1 68031 2918 88929 XOR\n2 1 88929 86881 120432 XOR\n2 1 68030 2917 88928 XOR\n2 1 88928 86880 120431 XOR\n2 1 68029 2916 88927 XOR\n2 1 88927 86879 120430 XOR\n2 1 68028 2915 88926 XOR\n2 1 88926 86878 120429 XOR\n2 1 68027 2914 88925 XOR\n2 1 88925 86877 120428 XOR\n2 1 68026 2913 88924 XOR\n2 1 88924 86876 120427 XOR\n2 1 68025 2912 88923 XOR\n2 1 88923 86875 120426 XOR\n2 1 68024 2943 88922 XOR\n2 1 88922 86874 120425 XOR\n2 1 68023 2942 88921 XOR\n2 1 88921 86873 120424 XOR\n2 1 68022 2941 88920 XOR\n2 1 88920 86872 120423 XOR\n2 1 68021 2940 88919 XOR\n2 1 88919 86871 120422 XOR\n2 1 68020 2939 88918 XOR\n2 1 88918 86870 120421 XOR\n2 1 68019 2938 88917 XOR\n2 1 88917 86869 120420 XOR\n2 1 68018 2937 88916 XOR\n2 1 88916 86868 120419 XOR\n2 1 68017 2936 88915 XOR\n2 1 88915 86867 120418 XOR\n2 1 68016 2935 88914 XOR\n2 1 88914 86866 120417 XOR\n2 1 68015 2934 88913 XOR\n2 1 88913 86865 120386 AND\n2 1 88913 86865 84817 XOR\n",
"2 1 120417 120386 84818 XOR\n2 1 88914 120386 37235 XOR\n2 1 86866 120386 37236 XOR\n2 1 37235 37236 37234 AND\n2 1 37234 120386 120387 XOR\n2 1 120418 120387 84819 XOR\n2 1 88915 120387 37238 XOR\n2 1 86867 120387 37239 XOR\n2 1 37238 37239 37237 AND\n2 1 37237 120387 120388 XOR\n2 1 120419 120388 84820 XOR\n2 1 88916 120388 37241 XOR\n2 1 86868 120388 37242 XOR\n2 1 37241 37242 37240 AND\n2 1 37240 120388 120389 XOR\n2 1 120420 120389 84821 XOR\n2 1 88917 120389 37244 XOR\n2 1 86869 120389 37245 XOR\n2 1 37244 37245 37243 AND\n2 1 37243 120389 120390 XOR\n2 1 120421 120390 84822 XOR\n2 1 88918 120390 37247 XOR\n2 1 86870 120390 37248 XOR\n2 1 37247 37248 37246 AND\n2 1 37246 120390 120391 XOR\n2 1 120422 120391 84823 XOR\n2 1 88919 120391 37250 XOR\n2 1 86871 120391 37251 XOR\n2 1 37250 37251 37249 AND\n2 1 37249 120391 120392 XOR\n2 1 120423 120392 84824 XOR\n2 1 88920 120392 37253 XOR\n2 1 86872 120392 37254 XOR\n2 1 37253 37254 37252 AND\n2 1 37252 120392 120393 XOR\n2 1 120424 120393 84825 XOR\n2 1 88921 120393 37256 XOR\n2 1 86873 120393 37257 XOR\n2 1 37256 37257 37255 AND\n2 1 37255 120393 120394 XOR\n2 1 120425 120394 84826 XOR\n2 1 88922 120394 37259 XOR\n2 1 86874 120394 37260 XOR\n2 1 37259 37260 37258 AND\n2 1 37258 120394 120395 XOR\n2 1 120426 120395 84827 XOR\n2 1 88923 120395 37262 XOR\n2 1 86875 120395 37263 XOR\n2 1 37262 37263 37261 AND\n2 1 37261 120395 120396 XOR\n2 1 120427 120396 84828 XOR\n2 1 88924 120396 37265 XOR\n2 1 86876 120396 37266 XOR\n2 1 37265 37266 37264 AND\n2 1 37264 120396 120397 XOR\n2 1 120428 120397 84829 XOR\n2 1 88925 120397 37268 XOR\n2 1 86877 120397 37269 XOR\n2 1 37268 37269 37267 AND\n2 1 37267 120397 120398 XOR\n2 1 120429 120398 84830 XOR\n2 1 88926 120398 37271 XOR\n2 1 86878 120398 37272 XOR\n2 1 37271 37272 37270 AND\n2 1 37270 120398 120399 XOR\n2 1 120430 120399 84831 XOR\n2 1 88927 120399 37274 XOR\n2 1 86879 120399 37275 XOR\n2 1 37274 37275 37273 AND\n2 1 37273 120399 120400 XOR\n2 1 120431 120400 84832 XOR\n2 1 88928 120400 37277 XOR\n2 1 86880 120400 37278 XOR\n2 1 37277 37278 37276 AND\n2 1 37276 120400 120401 XOR\n2 1 120432 120401 84833 XOR\n2 1 88929 120401 37280 XOR\n2 1 86881 120401 37281 XOR\n2 1 37280 37281 37279 AND\n2 1 37279 120401 120402 XOR\n2 1 120433 120402 84834 XOR\n2 1 88930 120402 37283 XOR\n2 1 86882 120402 37284 XOR\n2 1 37283 37284 37282 AND\n2 1 37282 120402 120403 XOR\n2 1 120434 120403 84835 XOR\n2 1 88931 120403 37286 XOR\n2 1 86883 120403 37287 XOR\n2 1 37286 37287 37285 AND\n2 1 37285 120403 120404 XOR\n2 1 120435 120404 84836 XOR\n2 1 88932 120404 37289 XOR\n2 1 86884 120404 37290 XOR\n2 1 37289 37290 37288 AND\n2 1 37288 120404 120405 XOR\n2 1 120436 120405 84837 XOR\n2 1 88933 120405 37292 XOR\n2 1 86885 120405 37293 XOR\n2 1 37292 37293 37291 AND\n2 1 37291 120405 120406 XOR\n2 1 120437 120406 84838 XOR\n2 1 88934 120406 37295 XOR\n2 1 86886 120406 37296 XOR\n2 1 37295 37296 37294 AND\n2 1 37294 120406 120407 XOR\n2 1 120438 120407 84839 XOR\n2 1 88935 120407 37298 XOR\n2 1 86887 120407 37299 XOR\n2 1 37298 37299 37297 AND\n2 1 37297 120407 120408 XOR\n2 1 120439 120408 84840 XOR\n2 1 88936 120408 37301 XOR\n2 1 86888 120408 37302 XOR\n2 1 37301 37302 37300 AND\n2 1 37300 120408 120409 XOR\n2 1 120440 120409 84841 XOR\n2 1 88937 120409 37304 XOR\n2 1 86889 120409 37305 XOR\n2 1 37304 37305 37303 AND\n2 1 37303 120409 120410 XOR\n2 1 120441 120410 84842 XOR\n2 1 88938 120410 37307 XOR\n2 1 86890 120410 37308 XOR\n2 1 37307 37308 37306 AND\n2 1 37306 120410 120411 XOR\n2 1 120442 120411 84843 XOR\n2 1 88939 120411 37310 XOR\n2 1 86891 120411 37311 XOR\n",
"2 1 37310 37311 37309 AND\n2 1 37309 120411 120412 XOR\n2 1 120443 120412 84844 XOR\n2 1 88940 120412 37313 XOR\n2 1 86892 120412 37314 XOR\n2 1 37313 37314 37312 AND\n2 1 37312 120412 120413 XOR\n2 1 120444 120413 84845 XOR\n2 1 88941 120413 37316 XOR\n2 1 86893 120413 37317 XOR\n2 1 37316 37317 37315 AND\n2 1 37315 120413 120414 XOR\n2 1 120445 120414 84846 XOR\n2 1 88942 120414 37319 XOR\n2 1 86894 120414 37320 XOR\n2 1 37319 37320 37318 AND\n2 1 37318 120414 120415 XOR\n2 1 120446 120415 84847 XOR\n2 1 88943 120415 37322 XOR\n2 1 86895 120415 37323 XOR\n2 1 37322 37323 37321 AND\n2 1 37321 120415 120416 XOR\n2 1 120447 120416 84848 XOR\n2 1 3043 107492 15163 XOR\n2 1 15163 15164 15162 AND\n2 1 15162 107492 107493 XOR\n2 1 3044 107493 15166 XOR\n2 1 90997 107493 15167 XOR\n2 1 15166 15167 15165 AND\n2 1 15165 107493 107494 XOR\n2 1 107525 107494 3429 XOR\n2 1 90998 107494 15170 XOR\n2 1 3045 107494 15169 XOR\n2 1 15169 15170 15168 AND\n2 1 15168 107494 107495 XOR\n2 1 107526 107495 3430 XOR\n2 1 90999 107495 15173 XOR\n2 1 3046 107495 15172 XOR\n2 1 15172 15173 15171 AND\n2 1 15171 107495 107496 XOR\n2 1 107527 107496 3431 XOR\n2 1 91000 107496 15176 XOR\n2 1 3047 107496 15175 XOR\n2 1 15175 15176 15174 AND\n2 1 15174 107496 107497 XOR\n2 1 3048 107497 15178 XOR\n2 1 91001 107497 15179 XOR\n2 1 15178 15179 15177 AND\n2 1 15177 107497 107498 XOR\n2 1 107528 107497 3432 XOR\n2 1 107529 107498 3433 XOR\n2 1 91002 107498 15182 XOR\n2 1 3049 107498 15181 XOR\n2 1 15181 15182 15180 AND\n2 1 15180 107498 107499 XOR\n2 1 91003 107499 15185 XOR\n2 1 3050 107499 15184 XOR\n2 1 107530 107499 3434 XOR\n2 1 65433 3434 65401 AND\n2 1 65432 3433 65400 AND\n2 1 65431 3432 65399 AND\n2 1 65430 3431 65398 AND\n2 1 65429 3430 65397 AND\n2 1 65428 3429 65396 AND\n2 1 65401 3498 99104 XOR\n2 1 65400 3497 99103 XOR\n2 1 65399 3496 99102 XOR\n2 1 65398 3495 99101 XOR\n2 1 65397 3494 99100 XOR\n2 1 65396 3493 99099 XOR\n2 1 3434 3466 65369 XOR\n2 1 3433 3465 65368 XOR\n2 1 3432 3464 65367 XOR\n2 1 3431 3463 65366 XOR\n2 1 3430 3462 65365 XOR\n2 1 3429 3461 65364 XOR\n2 1 107524 107493 3428 XOR\n2 1 65427 3428 65395 AND\n2 1 65395 3492 99098 XOR\n2 1 3428 3460 65363 XOR\n2 1 15184 15185 15183 AND\n2 1 15183 107499 107500 XOR\n2 1 3051 107500 15187 XOR\n2 1 91004 107500 15188 XOR\n2 1 15187 15188 15186 AND\n2 1 107531 107500 3435 XOR\n2 1 15186 107500 107501 XOR\n2 1 107532 107501 3436 XOR\n2 1 91005 107501 15191 XOR\n2 1 3052 107501 15190 XOR\n2 1 15190 15191 15189 AND\n2 1 15189 107501 107502 XOR\n2 1 107533 107502 3437 XOR\n2 1 3053 107502 15193 XOR\n2 1 91006 107502 15194 XOR\n2 1 15193 15194 15192 AND\n2 1 15192 107502 107503 XOR\n2 1 3054 107503 15196 XOR\n2 1 107534 107503 3438 XOR\n2 1 91007 107503 15197 XOR\n2 1 15196 15197 15195 AND\n2 1 15195 107503 107504 XOR\n2 1 107535 107504 3439 XOR\n2 1 3055 107504 15199 XOR\n2 1 91008 107504 15200 XOR\n2 1 15199 15200 15198 AND\n2 1 15198 107504 107505 XOR\n2 1 91009 107505 15203 XOR\n2 1 107536 107505 3440 XOR\n2 1 3056 107505 15202 XOR\n2 1 15202 15203 15201 AND\n2 1 15201 107505 107506 XOR\n2 1 91010 107506 15206 XOR\n2 1 107537 107506 3441 XOR\n2 1 3057 107506 15205 XOR\n2 1 15205 15206 15204 AND\n2 1 15204 107506 107507 XOR\n2 1 107538 107507 3442 XOR\n2 1 91011 107507 15209 XOR\n2 1 3058 107507 15208 XOR\n2 1 15208 15209 15207 AND\n2 1 15207 107507 107508 XOR\n2 1 107539 107508 3443 XOR\n2 1 3059 107508 15211 XOR\n2 1 91012 107508 15212 XOR\n2 1 15211 15212 15210 AND\n2 1 15210 107508 107509 XOR\n2 1 107540 107509 3444 XOR\n",
"2 1 3060 107509 15214 XOR\n2 1 91013 107509 15215 XOR\n2 1 15214 15215 15213 AND\n2 1 15213 107509 107510 XOR\n2 1 3061 107510 15217 XOR\n2 1 91014 107510 15218 XOR\n2 1 107541 107510 3445 XOR\n2 1 15217 15218 15216 AND\n2 1 15216 107510 107511 XOR\n2 1 107542 107511 3446 XOR\n2 1 91015 107511 15221 XOR\n2 1 3062 107511 15220 XOR\n2 1 15220 15221 15219 AND\n2 1 15219 107511 107512 XOR\n2 1 3063 107512 15223 XOR\n2 1 91016 107512 15224 XOR\n2 1 15223 15224 15222 AND\n2 1 107543 107512 3447 XOR\n2 1 15222 107512 107513 XOR\n2 1 107544 107513 3448 XOR\n2 1 3064 107513 15226 XOR\n2 1 91017 107513 15227 XOR\n2 1 65447 3448 65415 AND\n2 1 65446 3447 65414 AND\n2 1 65445 3446 65413 AND\n2 1 65444 3445 65412 AND\n2 1 65443 3444 65411 AND\n2 1 65442 3443 65410 AND\n2 1 65441 3442 65409 AND\n2 1 65440 3441 65408 AND\n2 1 65439 3440 65407 AND\n2 1 65438 3439 65406 AND\n2 1 65437 3438 65405 AND\n2 1 65436 3437 65404 AND\n2 1 65435 3436 65403 AND\n2 1 65434 3435 65402 AND\n2 1 65415 3512 99118 XOR\n2 1 65414 3511 99117 XOR\n2 1 65413 3510 99116 XOR\n2 1 65412 3509 99115 XOR\n2 1 65411 3508 99114 XOR\n2 1 65410 3507 99113 XOR\n2 1 65409 3506 99112 XOR\n2 1 65408 3505 99111 XOR\n2 1 65407 3504 99110 XOR\n2 1 65406 3503 99109 XOR\n2 1 65405 3502 99108 XOR\n2 1 65404 3501 99107 XOR\n2 1 65403 3500 99106 XOR\n2 1 65402 3499 99105 XOR\n2 1 3448 3480 65383 XOR\n2 1 3447 3479 65382 XOR\n2 1 3446 3478 65381 XOR\n2 1 3445 3477 65380 XOR\n2 1 3444 3476 65379 XOR\n2 1 3443 3475 65378 XOR\n2 1 3442 3474 65377 XOR\n2 1 3441 3473 65376 XOR\n2 1 3440 3472 65375 XOR\n2 1 3439 3471 65374 XOR\n2 1 3438 3470 65373 XOR\n2 1 3437 3469 65372 XOR\n2 1 3436 3468 65371 XOR\n2 1 3435 3467 65370 XOR\n2 1 15226 15227 15225 AND\n2 1 15225 107513 107514 XOR\n2 1 107545 107514 3449 XOR\n2 1 3065 107514 15229 XOR\n2 1 91018 107514 15230 XOR\n2 1 15229 15230 15228 AND\n2 1 15228 107514 107515 XOR\n2 1 107546 107515 3450 XOR\n2 1 91019 107515 15233 XOR\n2 1 3066 107515 15232 XOR\n2 1 15232 15233 15231 AND\n2 1 15231 107515 107516 XOR\n2 1 107547 107516 3451 XOR\n2 1 91020 107516 15236 XOR\n2 1 3067 107516 15235 XOR\n2 1 15235 15236 15234 AND\n2 1 15234 107516 107517 XOR\n2 1 91021 107517 15239 XOR\n2 1 3068 107517 15238 XOR\n2 1 15238 15239 15237 AND\n2 1 107548 107517 3452 XOR\n2 1 15237 107517 107518 XOR\n2 1 107549 107518 3453 XOR\n2 1 91022 107518 15242 XOR\n2 1 3069 107518 15241 XOR\n2 1 15241 15242 15240 AND\n2 1 15240 107518 107519 XOR\n2 1 3070 107519 15244 XOR\n2 1 107550 107519 3454 XOR\n2 1 65453 3454 65421 AND\n2 1 65452 3453 65420 AND\n2 1 65451 3452 65419 AND\n2 1 65450 3451 65418 AND\n2 1 65449 3450 65417 AND\n2 1 65448 3449 65416 AND\n2 1 65421 3518 99124 XOR\n2 1 65420 3517 99123 XOR\n2 1 65419 3516 99122 XOR\n2 1 65418 3515 99121 XOR\n2 1 65417 3514 99120 XOR\n2 1 65416 3513 99119 XOR\n2 1 3454 3486 65389 XOR\n2 1 3453 3485 65388 XOR\n2 1 3452 3484 65387 XOR\n2 1 3451 3483 65386 XOR\n2 1 3450 3482 65385 XOR\n2 1 3449 3481 65384 XOR\n2 1 91023 107519 15245 XOR\n2 1 15244 15245 15243 AND\n2 1 15243 107519 107520 XOR\n2 1 107551 107520 3455 XOR\n2 1 65454 3455 65422 AND\n2 1 65422 3519 99125 XOR\n2 1 3455 3487 65390 XOR\n2 1 3429 3434 62126 XOR\n2 1 3428 3433 62125 XOR\n2 1 3427 3432 62124 XOR\n2 1 3426 3431 62123 XOR\n2 1 3425 3430 62122 XOR\n2 1 3424 3429 62121 XOR\n2 1 3455 3428 62120 XOR\n2 1 3454 3427 62119 XOR\n2 1 3453 3426 62118 XOR\n2 1 3452 3425 62117 XOR\n",
"2 1 3451 3424 62116 XOR\n2 1 3450 3455 62115 XOR\n2 1 3449 3454 62114 XOR\n2 1 3448 3453 62113 XOR\n2 1 3447 3452 62112 XOR\n2 1 3446 3451 62111 XOR\n2 1 3445 3450 62110 XOR\n2 1 3444 3449 62109 XOR\n2 1 3443 3448 62108 XOR\n2 1 3442 3447 62107 XOR\n2 1 3441 3446 62106 XOR\n2 1 3440 3445 62105 XOR\n2 1 3439 3444 62104 XOR\n2 1 3438 3443 62103 XOR\n2 1 3437 3442 62102 XOR\n2 1 3436 3441 62101 XOR\n2 1 3435 3440 62100 XOR\n2 1 3434 3439 62099 XOR\n2 1 3433 3438 62098 XOR\n2 1 3432 3437 62097 XOR\n2 1 3431 3436 62096 XOR\n2 1 3430 3435 62095 XOR\n2 1 62126 3448 101173 XOR\n2 1 101173 99125 120651 XOR\n2 1 62125 3447 101172 XOR\n2 1 101172 99124 120650 XOR\n2 1 62124 3446 101171 XOR\n2 1 101171 99123 120649 XOR\n2 1 62123 3445 101170 XOR\n2 1 101170 99122 120648 XOR\n2 1 62122 3444 101169 XOR\n2 1 101169 99121 120647 XOR\n2 1 62121 3443 101168 XOR\n2 1 101168 99120 120646 XOR\n2 1 62120 3442 101167 XOR\n2 1 101167 99119 120645 XOR\n2 1 62119 3441 101166 XOR\n2 1 101166 99118 120644 XOR\n2 1 62118 3440 101165 XOR\n2 1 101165 99117 120643 XOR\n2 1 62117 3439 101164 XOR\n2 1 101164 99116 120642 XOR\n2 1 62116 3438 101163 XOR\n2 1 101163 99115 120641 XOR\n2 1 62115 3437 101162 XOR\n2 1 101162 99114 120640 XOR\n2 1 62114 3436 101161 XOR\n2 1 101161 99113 120639 XOR\n2 1 62113 3435 101160 XOR\n2 1 101160 99112 120638 XOR\n2 1 62112 3434 101159 XOR\n2 1 101159 99111 120637 XOR\n2 1 62111 3433 101158 XOR\n2 1 101158 99110 120636 XOR\n2 1 62110 3432 101157 XOR\n2 1 101157 99109 120635 XOR\n2 1 62109 3431 101156 XOR\n2 1 101156 99108 120634 XOR\n2 1 62108 3430 101155 XOR\n2 1 101155 99107 120633 XOR\n2 1 62107 3429 101154 XOR\n2 1 101154 99106 120632 XOR\n2 1 62106 3428 101153 XOR\n2 1 101153 99105 120631 XOR\n2 1 62105 3427 101152 XOR\n2 1 101152 99104 120630 XOR\n2 1 62104 3426 101151 XOR\n2 1 101151 99103 120629 XOR\n2 1 62103 3425 101150 XOR\n2 1 101150 99102 120628 XOR\n2 1 62102 3424 101149 XOR\n2 1 101149 99101 120627 XOR\n2 1 62101 3455 101148 XOR\n2 1 101148 99100 120626 XOR\n2 1 62100 3454 101147 XOR\n2 1 101147 99099 120625 XOR\n2 1 62099 3453 101146 XOR\n2 1 101146 99098 120624 XOR\n2 1 62098 3452 101145 XOR\n2 1 101145 99097 120623 XOR\n2 1 62097 3451 101144 XOR\n2 1 101144 99096 120622 XOR\n2 1 62096 3450 101143 XOR\n2 1 101143 99095 120621 XOR\n2 1 62095 3449 101142 XOR\n2 1 101142 99094 120590 AND\n2 1 101142 99094 97046 XOR\n2 1 97046 94998 120466 AND\n2 1 97046 94998 90961 XOR\n2 1 94999 120466 37417 XOR\n2 1 120621 120590 97047 XOR\n2 1 97047 94999 120497 XOR\n2 1 120497 120466 92969 XOR\n1 1 92969 90962 INV\n2 1 97047 120466 37416 XOR\n2 1 37416 37417 37415 AND\n2 1 37415 120466 120467 XOR\n2 1 95000 120467 37420 XOR\n2 1 101143 120590 37596 XOR\n2 1 99095 120590 37597 XOR\n2 1 37596 37597 37595 AND\n2 1 37595 120590 120591 XOR\n2 1 120622 120591 97048 XOR\n2 1 97048 95000 120498 XOR\n2 1 120498 120467 92970 XOR\n2 1 92970 92969 90963 XOR\n2 1 90963 92969 37324 AND\n2 1 37324 92969 120448 XOR\n1 1 120448 37327 INV\n2 1 97048 120467 37419 XOR\n2 1 37419 37420 37418 AND\n2 1 37418 120467 120468 XOR\n2 1 95001 120468 37423 XOR\n2 1 101144 120591 37599 XOR\n2 1 99096 120591 37600 XOR\n2 1 37599 37600 37598 AND\n2 1 37598 120591 120592 XOR\n2 1 120623 120592 97049 XOR\n2 1 97049 95001 120499 XOR\n2 1 120499 120468 92971 XOR\n1 1 92971 37398 INV\n2 1 37398 120448 90964 XOR\n2 1 92971 120448 37326 XOR\n2 1 37326 37327 37325 AND\n2 1 37325 120448 120449 XOR\n1 1 120449 37330 INV\n2 1 97049 120468 37422 XOR\n2 1 37422 37423 37421 AND\n",
"2 1 37421 120468 120469 XOR\n2 1 95002 120469 37426 XOR\n2 1 101145 120592 37602 XOR\n2 1 99097 120592 37603 XOR\n2 1 37602 37603 37601 AND\n2 1 37601 120592 120593 XOR\n2 1 120624 120593 97050 XOR\n2 1 97050 95002 120500 XOR\n2 1 120500 120469 92972 XOR\n1 1 92972 37399 INV\n2 1 37399 120449 90965 XOR\n2 1 92972 120449 37329 XOR\n2 1 37329 37330 37328 AND\n2 1 37328 120449 37332 XOR\n2 1 97050 120469 37425 XOR\n2 1 37425 37426 37424 AND\n2 1 37424 120469 120470 XOR\n2 1 95003 120470 37429 XOR\n2 1 101146 120593 37605 XOR\n2 1 99098 120593 37606 XOR\n2 1 37605 37606 37604 AND\n2 1 37604 120593 120594 XOR\n2 1 120625 120594 97051 XOR\n2 1 97051 95003 120501 XOR\n2 1 120501 120470 92973 XOR\n2 1 92973 37332 90966 XOR\n2 1 90966 37332 37331 AND\n2 1 37331 37332 120450 XOR\n1 1 120450 37335 INV\n2 1 97051 120470 37428 XOR\n2 1 37428 37429 37427 AND\n2 1 37427 120470 120471 XOR\n2 1 95004 120471 37432 XOR\n2 1 101147 120594 37608 XOR\n2 1 99099 120594 37609 XOR\n2 1 37608 37609 37607 AND\n2 1 37607 120594 120595 XOR\n2 1 120626 120595 97052 XOR\n2 1 97052 95004 120502 XOR\n2 1 120502 120471 92974 XOR\n1 1 92974 37400 INV\n2 1 37400 120450 90967 XOR\n2 1 92974 120450 37334 XOR\n2 1 37334 37335 37333 AND\n2 1 37333 120450 120451 XOR\n1 1 120451 37338 INV\n2 1 97052 120471 37431 XOR\n2 1 37431 37432 37430 AND\n2 1 37430 120471 120472 XOR\n2 1 95005 120472 37435 XOR\n2 1 101148 120595 37611 XOR\n2 1 99100 120595 37612 XOR\n2 1 37611 37612 37610 AND\n2 1 37610 120595 120596 XOR\n2 1 120627 120596 97053 XOR\n2 1 97053 95005 120503 XOR\n2 1 120503 120472 92975 XOR\n1 1 92975 37401 INV\n2 1 37401 120451 90968 XOR\n2 1 92975 120451 37337 XOR\n2 1 37337 37338 37336 AND\n2 1 37336 120451 37340 XOR\n2 1 97053 120472 37434 XOR\n2 1 37434 37435 37433 AND\n2 1 37433 120472 120473 XOR\n2 1 95006 120473 37438 XOR\n2 1 101149 120596 37614 XOR\n2 1 99101 120596 37615 XOR\n2 1 37614 37615 37613 AND\n2 1 37613 120596 120597 XOR\n2 1 120628 120597 97054 XOR\n2 1 97054 95006 120504 XOR\n2 1 120504 120473 92976 XOR\n2 1 92976 37340 90969 XOR\n2 1 90969 37340 37339 AND\n2 1 37339 37340 37342 XOR\n2 1 97054 120473 37437 XOR\n2 1 37437 37438 37436 AND\n2 1 37436 120473 120474 XOR\n2 1 95007 120474 37441 XOR\n2 1 101150 120597 37617 XOR\n2 1 99102 120597 37618 XOR\n2 1 37617 37618 37616 AND\n2 1 37616 120597 120598 XOR\n2 1 120629 120598 97055 XOR\n2 1 97055 95007 120505 XOR\n2 1 120505 120474 92977 XOR\n2 1 92977 37342 90970 XOR\n2 1 90970 37342 37341 AND\n2 1 37341 37342 37344 XOR\n2 1 97055 120474 37440 XOR\n2 1 37440 37441 37439 AND\n2 1 37439 120474 120475 XOR\n2 1 95008 120475 37444 XOR\n2 1 101151 120598 37620 XOR\n2 1 99103 120598 37621 XOR\n2 1 37620 37621 37619 AND\n2 1 37619 120598 120599 XOR\n2 1 120630 120599 97056 XOR\n2 1 97056 95008 120506 XOR\n2 1 120506 120475 92978 XOR\n2 1 92978 37344 90971 XOR\n2 1 90971 37344 37343 AND\n2 1 37343 37344 120452 XOR\n1 1 120452 37347 INV\n2 1 97056 120475 37443 XOR\n2 1 37443 37444 37442 AND\n2 1 37442 120475 120476 XOR\n2 1 95009 120476 37447 XOR\n2 1 101152 120599 37623 XOR\n2 1 99104 120599 37624 XOR\n2 1 37623 37624 37622 AND\n2 1 37622 120599 120600 XOR\n2 1 120631 120600 97057 XOR\n2 1 97057 95009 120507 XOR\n2 1 120507 120476 92979 XOR\n1 1 92979 37402 INV\n2 1 37402 120452 90972 XOR\n2 1 92979 120452 37346 XOR\n2 1 37346 37347 37345 AND\n2 1 37345 120452 37349 XOR\n2 1 97057 120476 37446 XOR\n2 1 37446 37447 37445 AND\n2 1 37445 120476 120477 XOR\n2 1 95010 120477 37450 XOR\n2 1 101153 120600 37626 XOR\n2 1 99105 120600 37627 XOR\n2 1 37626 37627 37625 AND\n",
"2 1 37625 120600 120601 XOR\n2 1 120632 120601 97058 XOR\n2 1 97058 95010 120508 XOR\n2 1 120508 120477 92980 XOR\n2 1 92980 37349 90973 XOR\n2 1 90973 37349 37348 AND\n2 1 37348 37349 37351 XOR\n2 1 97058 120477 37449 XOR\n2 1 37449 37450 37448 AND\n2 1 37448 120477 120478 XOR\n2 1 95011 120478 37453 XOR\n2 1 101154 120601 37629 XOR\n2 1 99106 120601 37630 XOR\n2 1 37629 37630 37628 AND\n2 1 37628 120601 120602 XOR\n2 1 120633 120602 97059 XOR\n2 1 97059 95011 120509 XOR\n2 1 120509 120478 92981 XOR\n2 1 92981 37351 90974 XOR\n2 1 90974 37351 37350 AND\n2 1 37350 37351 37353 XOR\n2 1 97059 120478 37452 XOR\n2 1 37452 37453 37451 AND\n2 1 37451 120478 120479 XOR\n2 1 95012 120479 37456 XOR\n2 1 101155 120602 37632 XOR\n2 1 99107 120602 37633 XOR\n2 1 37632 37633 37631 AND\n2 1 37631 120602 120603 XOR\n2 1 120634 120603 97060 XOR\n2 1 97060 95012 120510 XOR\n2 1 120510 120479 92982 XOR\n2 1 92982 37353 90975 XOR\n2 1 90975 37353 37352 AND\n2 1 37352 37353 120453 XOR\n1 1 120453 37356 INV\n2 1 97060 120479 37455 XOR\n2 1 37455 37456 37454 AND\n2 1 37454 120479 120480 XOR\n2 1 95013 120480 37459 XOR\n2 1 101156 120603 37635 XOR\n2 1 99108 120603 37636 XOR\n2 1 37635 37636 37634 AND\n2 1 37634 120603 120604 XOR\n2 1 120635 120604 97061 XOR\n2 1 97061 95013 120511 XOR\n2 1 120511 120480 92983 XOR\n1 1 92983 37403 INV\n2 1 37403 120453 90976 XOR\n2 1 92983 120453 37355 XOR\n2 1 37355 37356 37354 AND\n2 1 37354 120453 120454 XOR\n1 1 120454 37359 INV\n2 1 97061 120480 37458 XOR\n2 1 37458 37459 37457 AND\n2 1 37457 120480 120481 XOR\n2 1 95014 120481 37462 XOR\n2 1 101157 120604 37638 XOR\n2 1 99109 120604 37639 XOR\n2 1 37638 37639 37637 AND\n2 1 37637 120604 120605 XOR\n2 1 120636 120605 97062 XOR\n2 1 97062 95014 120512 XOR\n2 1 120512 120481 92984 XOR\n1 1 92984 37404 INV\n2 1 37404 120454 90977 XOR\n2 1 92984 120454 37358 XOR\n2 1 37358 37359 37357 AND\n2 1 37357 120454 37361 XOR\n2 1 97062 120481 37461 XOR\n2 1 37461 37462 37460 AND\n2 1 37460 120481 120482 XOR\n2 1 95015 120482 37465 XOR\n2 1 101158 120605 37641 XOR\n2 1 99110 120605 37642 XOR\n2 1 37641 37642 37640 AND\n2 1 37640 120605 120606 XOR\n2 1 120637 120606 97063 XOR\n2 1 97063 95015 120513 XOR\n2 1 120513 120482 92985 XOR\n2 1 92985 37361 90978 XOR\n2 1 90978 37361 37360 AND\n2 1 37360 37361 37363 XOR\n2 1 97063 120482 37464 XOR\n2 1 37464 37465 37463 AND\n2 1 37463 120482 120483 XOR\n2 1 95016 120483 37468 XOR\n2 1 101159 120606 37644 XOR\n2 1 99111 120606 37645 XOR\n2 1 37644 37645 37643 AND\n2 1 37643 120606 120607 XOR\n2 1 120638 120607 97064 XOR\n2 1 97064 95016 120514 XOR\n2 1 120514 120483 92986 XOR\n2 1 92986 37363 90979 XOR\n2 1 90979 37363 37362 AND\n2 1 37362 37363 120455 XOR\n1 1 120455 37366 INV\n2 1 97064 120483 37467 XOR\n2 1 37467 37468 37466 AND\n2 1 37466 120483 120484 XOR\n2 1 95017 120484 37471 XOR\n2 1 101160 120607 37647 XOR\n2 1 99112 120607 37648 XOR\n2 1 37647 37648 37646 AND\n2 1 37646 120607 120608 XOR\n2 1 120639 120608 97065 XOR\n2 1 97065 95017 120515 XOR\n2 1 120515 120484 92987 XOR\n1 1 92987 37405 INV\n2 1 37405 120455 90980 XOR\n2 1 92987 120455 37365 XOR\n2 1 37365 37366 37364 AND\n2 1 37364 120455 120456 XOR\n1 1 120456 37369 INV\n2 1 97065 120484 37470 XOR\n2 1 37470 37471 37469 AND\n2 1 37469 120484 120485 XOR\n2 1 95018 120485 37474 XOR\n2 1 101161 120608 37650 XOR\n2 1 99113 120608 37651 XOR\n2 1 37650 37651 37649 AND\n2 1 37649 120608 120609 XOR\n2 1 120640 120609 97066 XOR\n2 1 97066 95018 120516 XOR\n2 1 120516 120485 92988 XOR\n1 1 92988 37406 INV\n2 1 37406 120456 90981 XOR\n",
"2 1 92988 120456 37368 XOR\n2 1 37368 37369 37367 AND\n2 1 37367 120456 120457 XOR\n1 1 120457 37372 INV\n2 1 97066 120485 37473 XOR\n2 1 37473 37474 37472 AND\n2 1 37472 120485 120486 XOR\n2 1 95019 120486 37477 XOR\n2 1 101162 120609 37653 XOR\n2 1 99114 120609 37654 XOR\n2 1 37653 37654 37652 AND\n2 1 37652 120609 120610 XOR\n2 1 120641 120610 97067 XOR\n2 1 97067 95019 120517 XOR\n2 1 120517 120486 92989 XOR\n1 1 92989 37407 INV\n2 1 37407 120457 90982 XOR\n2 1 92989 120457 37371 XOR\n2 1 37371 37372 37370 AND\n2 1 37370 120457 120458 XOR\n1 1 120458 37375 INV\n2 1 97067 120486 37476 XOR\n2 1 37476 37477 37475 AND\n2 1 37475 120486 120487 XOR\n2 1 95020 120487 37480 XOR\n2 1 101163 120610 37656 XOR\n2 1 99115 120610 37657 XOR\n2 1 37656 37657 37655 AND\n2 1 37655 120610 120611 XOR\n2 1 120642 120611 97068 XOR\n2 1 97068 95020 120518 XOR\n2 1 120518 120487 92990 XOR\n1 1 92990 37408 INV\n2 1 37408 120458 90983 XOR\n2 1 92990 120458 37374 XOR\n2 1 37374 37375 37373 AND\n2 1 37373 120458 120459 XOR\n1 1 120459 37378 INV\n2 1 97068 120487 37479 XOR\n2 1 37479 37480 37478 AND\n2 1 37478 120487 120488 XOR\n2 1 95021 120488 37483 XOR\n2 1 101164 120611 37659 XOR\n2 1 99116 120611 37660 XOR\n2 1 37659 37660 37658 AND\n2 1 37658 120611 120612 XOR\n2 1 120643 120612 97069 XOR\n2 1 97069 95021 120519 XOR\n2 1 120519 120488 92991 XOR\n1 1 92991 37409 INV\n2 1 37409 120459 90984 XOR\n2 1 92991 120459 37377 XOR\n2 1 37377 37378 37376 AND\n2 1 37376 120459 37380 XOR\n2 1 97069 120488 37482 XOR\n2 1 37482 37483 37481 AND\n2 1 37481 120488 120489 XOR\n2 1 95022 120489 37486 XOR\n2 1 101165 120612 37662 XOR\n2 1 99117 120612 37663 XOR\n2 1 37662 37663 37661 AND\n2 1 37661 120612 120613 XOR\n2 1 120644 120613 97070 XOR\n2 1 97070 95022 120520 XOR\n2 1 120520 120489 92992 XOR\n2 1 92992 37380 90985 XOR\n2 1 90985 37380 37379 AND\n2 1 37379 37380 120460 XOR\n1 1 120460 37383 INV\n2 1 97070 120489 37485 XOR\n2 1 37485 37486 37484 AND\n2 1 37484 120489 120490 XOR\n2 1 95023 120490 37489 XOR\n2 1 101166 120613 37665 XOR\n2 1 99118 120613 37666 XOR\n2 1 37665 37666 37664 AND\n2 1 37664 120613 120614 XOR\n2 1 120645 120614 97071 XOR\n2 1 97071 95023 120521 XOR\n2 1 120521 120490 92993 XOR\n1 1 92993 37410 INV\n2 1 37410 120460 90986 XOR\n2 1 92993 120460 37382 XOR\n2 1 37382 37383 37381 AND\n2 1 37381 120460 120461 XOR\n1 1 120461 37386 INV\n2 1 97071 120490 37488 XOR\n2 1 37488 37489 37487 AND\n2 1 37487 120490 120491 XOR\n2 1 95024 120491 37492 XOR\n2 1 101167 120614 37668 XOR\n2 1 99119 120614 37669 XOR\n2 1 37668 37669 37667 AND\n2 1 37667 120614 120615 XOR\n2 1 120646 120615 97072 XOR\n2 1 97072 95024 120522 XOR\n2 1 120522 120491 92994 XOR\n1 1 92994 37411 INV\n2 1 37411 120461 90987 XOR\n2 1 92994 120461 37385 XOR\n2 1 37385 37386 37384 AND\n2 1 37384 120461 37388 XOR\n2 1 97072 120491 37491 XOR\n2 1 37491 37492 37490 AND\n2 1 37490 120491 120492 XOR\n2 1 95025 120492 37495 XOR\n2 1 101168 120615 37671 XOR\n2 1 99120 120615 37672 XOR\n2 1 37671 37672 37670 AND\n2 1 37670 120615 120616 XOR\n2 1 120647 120616 97073 XOR\n2 1 97073 95025 120523 XOR\n2 1 120523 120492 92995 XOR\n2 1 92995 37388 90988 XOR\n2 1 90988 37388 37387 AND\n2 1 37387 37388 120462 XOR\n1 1 120462 37391 INV\n2 1 97073 120492 37494 XOR\n2 1 37494 37495 37493 AND\n2 1 37493 120492 120493 XOR\n2 1 95026 120493 37498 XOR\n2 1 101169 120616 37674 XOR\n2 1 99121 120616 37675 XOR\n2 1 37674 37675 37673 AND\n2 1 37673 120616 120617 XOR\n2 1 120648 120617 97074 XOR\n2 1 97074 95026 120524 XOR\n2 1 120524 120493 92996 XOR\n",
"1 1 92996 37412 INV\n2 1 37412 120462 90989 XOR\n2 1 92996 120462 37390 XOR\n2 1 37390 37391 37389 AND\n2 1 37389 120462 120463 XOR\n1 1 120463 37394 INV\n2 1 97074 120493 37497 XOR\n2 1 37497 37498 37496 AND\n2 1 37496 120493 120494 XOR\n2 1 95027 120494 37501 XOR\n2 1 101170 120617 37677 XOR\n2 1 99122 120617 37678 XOR\n2 1 37677 37678 37676 AND\n2 1 37676 120617 120618 XOR\n2 1 120649 120618 97075 XOR\n2 1 97075 95027 120525 XOR\n2 1 120525 120494 92997 XOR\n1 1 92997 37413 INV\n2 1 37413 120463 90990 XOR\n2 1 92997 120463 37393 XOR\n2 1 37393 37394 37392 AND\n2 1 37392 120463 120464 XOR\n1 1 120464 37397 INV\n2 1 97075 120494 37500 XOR\n2 1 37500 37501 37499 AND\n2 1 37499 120494 120495 XOR\n2 1 95028 120495 37504 XOR\n2 1 101171 120618 37680 XOR\n2 1 99123 120618 37681 XOR\n2 1 37680 37681 37679 AND\n2 1 37679 120618 120619 XOR\n2 1 120650 120619 97076 XOR\n2 1 97076 95028 120526 XOR\n2 1 120526 120495 92998 XOR\n1 1 92998 37414 INV\n2 1 37414 120464 90991 XOR\n2 1 92998 120464 37396 XOR\n2 1 37396 37397 37395 AND\n2 1 37395 120464 120465 XOR\n2 1 97076 120495 37503 XOR\n2 1 37503 37504 37502 AND\n2 1 37502 120495 120496 XOR\n2 1 101172 120619 37683 XOR\n2 1 99124 120619 37684 XOR\n2 1 37683 37684 37682 AND\n2 1 37682 120619 120620 XOR\n2 1 120651 120620 97077 XOR\n2 1 97077 95029 120527 XOR\n2 1 120527 120496 92999 XOR\n2 1 92999 120465 90992 XOR\n2 1 90990 84846 107487 XOR\n2 1 90992 84848 107489 XOR\n2 1 90961 84817 107428 AND\n2 1 3021 90974 107409 XOR\n2 1 90961 84817 2880 XOR\n2 1 3022 90975 107410 XOR\n2 1 3025 90978 107413 XOR\n2 1 3024 90977 107412 XOR\n2 1 3023 90976 107411 XOR\n2 1 3026 90979 107414 XOR\n2 1 90962 84818 107459 XOR\n2 1 90965 84821 107462 XOR\n2 1 90964 84820 107461 XOR\n2 1 90963 84819 107460 XOR\n2 1 84818 107428 15068 XOR\n2 1 90966 84822 107463 XOR\n2 1 90962 107428 15067 XOR\n2 1 15067 15068 15066 AND\n2 1 15066 107428 107429 XOR\n2 1 107460 107429 2882 XOR\n2 1 3017 90970 107405 XOR\n2 1 3018 90971 107406 XOR\n2 1 3008 90961 107366 AND\n2 1 3008 90961 3392 XOR\n2 1 3029 90982 107417 XOR\n2 1 3028 90981 107416 XOR\n2 1 3027 90980 107415 XOR\n2 1 90969 84825 107466 XOR\n2 1 90968 84824 107465 XOR\n2 1 90967 84823 107464 XOR\n2 1 90981 84837 107478 XOR\n2 1 84819 107429 15071 XOR\n2 1 90963 107429 15070 XOR\n2 1 15070 15071 15069 AND\n2 1 15069 107429 107430 XOR\n2 1 3039 90992 107427 XOR\n2 1 90979 84835 107476 XOR\n2 1 3032 90985 107420 XOR\n2 1 3031 90984 107419 XOR\n2 1 3030 90983 107418 XOR\n2 1 3033 90986 107421 XOR\n2 1 90972 84828 107469 XOR\n2 1 90971 84827 107468 XOR\n2 1 90970 84826 107467 XOR\n2 1 90980 84836 107477 XOR\n2 1 107461 107430 2883 XOR\n2 1 90973 84829 107470 XOR\n2 1 90964 107430 15073 XOR\n2 1 3037 90990 107425 XOR\n2 1 3036 90989 107424 XOR\n2 1 3034 90987 107422 XOR\n2 1 3035 90988 107423 XOR\n2 1 3038 90991 107426 XOR\n2 1 90977 84833 107474 XOR\n2 1 90976 84832 107473 XOR\n2 1 90974 84830 107471 XOR\n2 1 90975 84831 107472 XOR\n2 1 90978 84834 107475 XOR\n2 1 84820 107430 15074 XOR\n2 1 15073 15074 15072 AND\n2 1 15072 107430 107431 XOR\n2 1 84821 107431 15077 XOR\n2 1 107462 107431 2884 XOR\n2 1 90965 107431 15076 XOR\n2 1 15076 15077 15075 AND\n2 1 15075 107431 107432 XOR\n2 1 107463 107432 2885 XOR\n2 1 90988 84844 107485 XOR\n2 1 3009 90962 107397 XOR\n2 1 107397 107366 3393 XOR\n2 1 2885 2949 72564 XOR\n2 1 2884 2948 72563 XOR\n2 1 2883 2947 72562 XOR\n2 1 2882 2946 72561 XOR\n2 1 2880 2944 72559 XOR\n2 1 72564 72532 72500 AND\n2 1 72563 72531 72499 AND\n2 1 72562 72530 72498 AND\n",
"2 1 72561 72529 72497 AND\n2 1 72559 72527 72495 AND\n2 1 72500 2949 86838 XOR\n2 1 72499 2948 86837 XOR\n2 1 72498 2947 86836 XOR\n2 1 72497 2946 86835 XOR\n2 1 72495 2944 86833 XOR\n2 1 2885 2917 72436 XOR\n2 1 2884 2916 72435 XOR\n2 1 2883 2915 72434 XOR\n2 1 2882 2914 72433 XOR\n2 1 2880 2912 72431 XOR\n2 1 3020 90973 107408 XOR\n2 1 90989 84845 107486 XOR\n2 1 90991 84847 107488 XOR\n2 1 90982 84838 107479 XOR\n2 1 3010 90963 107398 XOR\n2 1 3013 90966 107401 XOR\n2 1 3012 90965 107400 XOR\n2 1 3011 90964 107399 XOR\n2 1 3009 107366 14977 XOR\n2 1 3014 90967 107402 XOR\n2 1 90962 107366 14978 XOR\n2 1 14977 14978 14976 AND\n2 1 14976 107366 107367 XOR\n2 1 90963 107367 14981 XOR\n2 1 107398 107367 3394 XOR\n2 1 90983 84839 107480 XOR\n2 1 90986 84842 107483 XOR\n2 1 90985 84841 107482 XOR\n2 1 90984 84840 107481 XOR\n2 1 90966 107432 15079 XOR\n2 1 90987 84843 107484 XOR\n2 1 84822 107432 15080 XOR\n2 1 15079 15080 15078 AND\n2 1 15078 107432 107433 XOR\n2 1 84823 107433 15083 XOR\n2 1 90967 107433 15082 XOR\n2 1 107464 107433 2886 XOR\n2 1 2886 2950 72565 XOR\n2 1 72565 72533 72501 AND\n2 1 72501 2950 86839 XOR\n2 1 2886 2918 72437 XOR\n2 1 15082 15083 15081 AND\n2 1 15081 107433 107434 XOR\n2 1 107465 107434 2887 XOR\n2 1 84824 107434 15086 XOR\n2 1 90968 107434 15085 XOR\n2 1 15085 15086 15084 AND\n2 1 15084 107434 107435 XOR\n2 1 107466 107435 2888 XOR\n2 1 90969 107435 15088 XOR\n2 1 84825 107435 15089 XOR\n2 1 15088 15089 15087 AND\n2 1 15087 107435 107436 XOR\n2 1 107467 107436 2889 XOR\n2 1 84826 107436 15092 XOR\n2 1 90970 107436 15091 XOR\n2 1 15091 15092 15090 AND\n2 1 15090 107436 107437 XOR\n2 1 107468 107437 2890 XOR\n2 1 84827 107437 15095 XOR\n2 1 90971 107437 15094 XOR\n2 1 15094 15095 15093 AND\n2 1 15093 107437 107438 XOR\n2 1 84828 107438 15098 XOR\n2 1 90972 107438 15097 XOR\n2 1 15097 15098 15096 AND\n2 1 107469 107438 2891 XOR\n2 1 15096 107438 107439 XOR\n2 1 107470 107439 2892 XOR\n2 1 2892 2956 72571 XOR\n2 1 2891 2955 72570 XOR\n2 1 2890 2954 72569 XOR\n2 1 2889 2953 72568 XOR\n2 1 2888 2952 72567 XOR\n2 1 2887 2951 72566 XOR\n2 1 72571 72539 72507 AND\n2 1 72570 72538 72506 AND\n2 1 72569 72537 72505 AND\n2 1 72568 72536 72504 AND\n2 1 72567 72535 72503 AND\n2 1 72566 72534 72502 AND\n2 1 72507 2956 86845 XOR\n2 1 72506 2955 86844 XOR\n2 1 72505 2954 86843 XOR\n2 1 72504 2953 86842 XOR\n2 1 72503 2952 86841 XOR\n2 1 72502 2951 86840 XOR\n2 1 2892 2924 72443 XOR\n2 1 2891 2923 72442 XOR\n2 1 2890 2922 72441 XOR\n2 1 2889 2921 72440 XOR\n2 1 2888 2920 72439 XOR\n2 1 2887 2919 72438 XOR\n2 1 2880 2891 68013 XOR\n2 1 84829 107439 15101 XOR\n2 1 90973 107439 15100 XOR\n2 1 15100 15101 15099 AND\n2 1 15099 107439 107440 XOR\n2 1 84830 107440 15104 XOR\n2 1 90974 107440 15103 XOR\n2 1 107471 107440 2893 XOR\n2 1 2893 2957 72572 XOR\n2 1 72572 72540 72508 AND\n2 1 72508 2957 86846 XOR\n2 1 2893 2925 72444 XOR\n2 1 2882 2893 67983 XOR\n2 1 65361 3394 65329 AND\n2 1 65360 3393 65328 AND\n2 1 65359 3392 65327 AND\n2 1 65329 3458 99064 XOR\n2 1 65328 3457 99063 XOR\n2 1 65327 3456 99062 XOR\n2 1 3394 3426 65297 XOR\n2 1 3393 3425 65296 XOR\n2 1 3392 3424 65295 XOR\n2 1 3010 107367 14980 XOR\n2 1 14980 14981 14979 AND\n2 1 14979 107367 107368 XOR\n2 1 3011 107368 14983 XOR\n2 1 90964 107368 14984 XOR\n2 1 14983 14984 14982 AND\n2 1 14982 107368 107369 XOR\n2 1 107400 107369 3396 XOR\n2 1 3012 107369 14986 XOR\n2 1 90965 107369 14987 XOR\n2 1 14986 14987 14985 AND\n",
"2 1 14985 107369 107370 XOR\n2 1 3013 107370 14989 XOR\n2 1 107401 107370 3397 XOR\n2 1 90966 107370 14990 XOR\n2 1 14989 14990 14988 AND\n2 1 14988 107370 107371 XOR\n2 1 107402 107371 3398 XOR\n2 1 3014 107371 14992 XOR\n2 1 90967 107371 14993 XOR\n2 1 14992 14993 14991 AND\n2 1 14991 107371 107372 XOR\n2 1 3015 107372 14995 XOR\n2 1 90968 107372 14996 XOR\n2 1 14995 14996 14994 AND\n2 1 14994 107372 107373 XOR\n2 1 107399 107368 3395 XOR\n2 1 3016 107373 14998 XOR\n2 1 90969 107373 14999 XOR\n2 1 14998 14999 14997 AND\n2 1 14997 107373 107374 XOR\n2 1 90970 107374 15002 XOR\n2 1 107405 107374 3401 XOR\n2 1 65368 3401 65336 AND\n2 1 65365 3398 65333 AND\n2 1 65364 3397 65332 AND\n2 1 65363 3396 65331 AND\n2 1 65362 3395 65330 AND\n2 1 65336 3465 99071 XOR\n2 1 65333 3462 99068 XOR\n2 1 65332 3461 99067 XOR\n2 1 65331 3460 99066 XOR\n2 1 65330 3459 99065 XOR\n2 1 3401 3433 65304 XOR\n2 1 3398 3430 65301 XOR\n2 1 3397 3429 65300 XOR\n2 1 3396 3428 65299 XOR\n2 1 3395 3427 65298 XOR\n2 1 3017 107374 15001 XOR\n2 1 15001 15002 15000 AND\n2 1 15000 107374 107375 XOR\n2 1 90971 107375 15005 XOR\n2 1 107406 107375 3402 XOR\n2 1 65369 3402 65337 AND\n2 1 65337 3466 99072 XOR\n2 1 3402 3434 65305 XOR\n2 1 3015 90968 107403 XOR\n2 1 107403 107372 3399 XOR\n2 1 65366 3399 65334 AND\n2 1 65334 3463 99069 XOR\n2 1 3399 3431 65302 XOR\n2 1 3019 90972 107407 XOR\n2 1 3016 90969 107404 XOR\n2 1 107404 107373 3400 XOR\n2 1 65367 3400 65335 AND\n2 1 65335 3464 99070 XOR\n2 1 3400 3432 65303 XOR\n2 1 3018 107375 15004 XOR\n2 1 15004 15005 15003 AND\n2 1 15003 107375 107376 XOR\n2 1 107407 107376 3403 XOR\n2 1 3019 107376 15007 XOR\n2 1 90972 107376 15008 XOR\n2 1 15007 15008 15006 AND\n2 1 15006 107376 107377 XOR\n2 1 107408 107377 3404 XOR\n2 1 90973 107377 15011 XOR\n2 1 3020 107377 15010 XOR\n2 1 15010 15011 15009 AND\n2 1 15009 107377 107378 XOR\n2 1 107409 107378 3405 XOR\n2 1 90974 107378 15014 XOR\n2 1 3021 107378 15013 XOR\n2 1 15013 15014 15012 AND\n2 1 15012 107378 107379 XOR\n2 1 90975 107379 15017 XOR\n2 1 3022 107379 15016 XOR\n2 1 15016 15017 15015 AND\n2 1 107410 107379 3406 XOR\n2 1 15015 107379 107380 XOR\n2 1 107411 107380 3407 XOR\n2 1 90976 107380 15020 XOR\n2 1 3023 107380 15019 XOR\n2 1 15019 15020 15018 AND\n2 1 15018 107380 107381 XOR\n2 1 3024 107381 15022 XOR\n2 1 107412 107381 3408 XOR\n2 1 65375 3408 65343 AND\n2 1 65374 3407 65342 AND\n2 1 65373 3406 65341 AND\n2 1 65372 3405 65340 AND\n2 1 65371 3404 65339 AND\n2 1 65370 3403 65338 AND\n2 1 65343 3472 99078 XOR\n2 1 65342 3471 99077 XOR\n2 1 65341 3470 99076 XOR\n2 1 65340 3469 99075 XOR\n2 1 65339 3468 99074 XOR\n2 1 65338 3467 99073 XOR\n2 1 3408 3440 65311 XOR\n2 1 3407 3439 65310 XOR\n2 1 3406 3438 65309 XOR\n2 1 3405 3437 65308 XOR\n2 1 3404 3436 65307 XOR\n2 1 3403 3435 65306 XOR\n2 1 90977 107381 15023 XOR\n2 1 15022 15023 15021 AND\n2 1 15021 107381 107382 XOR\n2 1 107413 107382 3409 XOR\n2 1 3025 107382 15025 XOR\n2 1 90978 107382 15026 XOR\n2 1 15025 15026 15024 AND\n2 1 15024 107382 107383 XOR\n2 1 107414 107383 3410 XOR\n2 1 90979 107383 15029 XOR\n2 1 3026 107383 15028 XOR\n2 1 15028 15029 15027 AND\n2 1 15027 107383 107384 XOR\n2 1 107415 107384 3411 XOR\n2 1 90980 107384 15032 XOR\n2 1 3027 107384 15031 XOR\n2 1 15031 15032 15030 AND\n2 1 15030 107384 107385 XOR\n2 1 107416 107385 3412 XOR\n2 1 90981 107385 15035 XOR\n2 1 3028 107385 15034 XOR\n2 1 15034 15035 15033 AND\n2 1 15033 107385 107386 XOR\n2 1 3029 107386 15037 XOR\n",
"2 1 90982 107386 15038 XOR\n2 1 15037 15038 15036 AND\n2 1 15036 107386 107387 XOR\n2 1 107417 107386 3413 XOR\n2 1 107418 107387 3414 XOR\n2 1 90983 107387 15041 XOR\n2 1 3030 107387 15040 XOR\n2 1 15040 15041 15039 AND\n2 1 15039 107387 107388 XOR\n2 1 90984 107388 15044 XOR\n2 1 3031 107388 15043 XOR\n2 1 15043 15044 15042 AND\n2 1 15042 107388 107389 XOR\n2 1 3032 107389 15046 XOR\n2 1 90985 107389 15047 XOR\n2 1 15046 15047 15045 AND\n2 1 15045 107389 107390 XOR\n2 1 107421 107390 3417 XOR\n2 1 90986 107390 15050 XOR\n2 1 3033 107390 15049 XOR\n2 1 15049 15050 15048 AND\n2 1 15048 107390 107391 XOR\n2 1 107422 107391 3418 XOR\n2 1 90987 107391 15053 XOR\n2 1 3034 107391 15052 XOR\n2 1 15052 15053 15051 AND\n2 1 15051 107391 107392 XOR\n2 1 107423 107392 3419 XOR\n2 1 90988 107392 15056 XOR\n2 1 3035 107392 15055 XOR\n2 1 15055 15056 15054 AND\n2 1 15054 107392 107393 XOR\n2 1 3036 107393 15058 XOR\n2 1 90989 107393 15059 XOR\n2 1 15058 15059 15057 AND\n2 1 15057 107393 107394 XOR\n2 1 107424 107393 3420 XOR\n2 1 107425 107394 3421 XOR\n2 1 90990 107394 15062 XOR\n2 1 3037 107394 15061 XOR\n2 1 107419 107388 3415 XOR\n2 1 15061 15062 15060 AND\n2 1 15060 107394 107395 XOR\n2 1 90991 107395 15065 XOR\n2 1 3038 107395 15064 XOR\n2 1 15064 15065 15063 AND\n2 1 15063 107395 107396 XOR\n2 1 107427 107396 3423 XOR\n2 1 107426 107395 3422 XOR\n2 1 65390 3423 65358 AND\n2 1 65389 3422 65357 AND\n2 1 65388 3421 65356 AND\n2 1 65387 3420 65355 AND\n2 1 65386 3419 65354 AND\n2 1 65385 3418 65353 AND\n2 1 65384 3417 65352 AND\n2 1 65382 3415 65350 AND\n2 1 65381 3414 65349 AND\n2 1 65380 3413 65348 AND\n2 1 65379 3412 65347 AND\n2 1 65378 3411 65346 AND\n2 1 65377 3410 65345 AND\n2 1 65376 3409 65344 AND\n2 1 65358 3487 99093 XOR\n2 1 65357 3486 99092 XOR\n2 1 65356 3485 99091 XOR\n2 1 65355 3484 99090 XOR\n2 1 65354 3483 99089 XOR\n2 1 65353 3482 99088 XOR\n2 1 65352 3481 99087 XOR\n2 1 65350 3479 99085 XOR\n2 1 65349 3478 99084 XOR\n2 1 65348 3477 99083 XOR\n2 1 65347 3476 99082 XOR\n2 1 65346 3475 99081 XOR\n2 1 65345 3474 99080 XOR\n2 1 65344 3473 99079 XOR\n2 1 3423 3455 65326 XOR\n2 1 3422 3454 65325 XOR\n2 1 3421 3453 65324 XOR\n2 1 3420 3452 65323 XOR\n2 1 3419 3451 65322 XOR\n2 1 3418 3450 65321 XOR\n2 1 3417 3449 65320 XOR\n2 1 3415 3447 65318 XOR\n2 1 3414 3446 65317 XOR\n2 1 3413 3445 65316 XOR\n2 1 3412 3444 65315 XOR\n2 1 3411 3443 65314 XOR\n2 1 3410 3442 65313 XOR\n2 1 3409 3441 65312 XOR\n2 1 107420 107389 3416 XOR\n2 1 65383 3416 65351 AND\n2 1 65351 3480 99086 XOR\n2 1 3416 3448 65319 XOR\n2 1 15103 15104 15102 AND\n2 1 15102 107440 107441 XOR\n2 1 90975 107441 15106 XOR\n2 1 84831 107441 15107 XOR\n2 1 15106 15107 15105 AND\n2 1 107472 107441 2894 XOR\n2 1 2894 2958 72573 XOR\n2 1 72573 72541 72509 AND\n2 1 72509 2958 86847 XOR\n2 1 2894 2926 72445 XOR\n2 1 15105 107441 107442 XOR\n2 1 107473 107442 2895 XOR\n2 1 84832 107442 15110 XOR\n2 1 90976 107442 15109 XOR\n2 1 15109 15110 15108 AND\n2 1 15108 107442 107443 XOR\n2 1 107474 107443 2896 XOR\n2 1 90977 107443 15112 XOR\n2 1 84833 107443 15113 XOR\n2 1 15112 15113 15111 AND\n2 1 15111 107443 107444 XOR\n2 1 90978 107444 15115 XOR\n2 1 107475 107444 2897 XOR\n2 1 84834 107444 15116 XOR\n2 1 15115 15116 15114 AND\n2 1 15114 107444 107445 XOR\n2 1 107476 107445 2898 XOR\n2 1 90979 107445 15118 XOR\n2 1 2898 2962 72577 XOR\n2 1 2897 2961 72576 XOR\n2 1 2896 2960 72575 XOR\n2 1 2895 2959 72574 XOR\n2 1 72577 72545 72513 AND\n",
"2 1 72576 72544 72512 AND\n2 1 72575 72543 72511 AND\n2 1 72574 72542 72510 AND\n2 1 72513 2962 86851 XOR\n2 1 72512 2961 86850 XOR\n2 1 72511 2960 86849 XOR\n2 1 72510 2959 86848 XOR\n2 1 2898 2930 72449 XOR\n2 1 2897 2929 72448 XOR\n2 1 2896 2928 72447 XOR\n2 1 2895 2927 72446 XOR\n2 1 2887 2898 67988 XOR\n2 1 2886 2897 67987 XOR\n2 1 2885 2896 67986 XOR\n2 1 2884 2895 67985 XOR\n2 1 2883 2894 67984 XOR\n2 1 84835 107445 15119 XOR\n2 1 15118 15119 15117 AND\n2 1 15117 107445 107446 XOR\n2 1 107477 107446 2899 XOR\n2 1 2899 2963 72578 XOR\n2 1 72578 72546 72514 AND\n2 1 72514 2963 86852 XOR\n2 1 2899 2931 72450 XOR\n2 1 2888 2899 67989 XOR\n2 1 90980 107446 15121 XOR\n2 1 84836 107446 15122 XOR\n2 1 15121 15122 15120 AND\n2 1 15120 107446 107447 XOR\n2 1 107478 107447 2900 XOR\n2 1 90981 107447 15124 XOR\n2 1 2900 2964 72579 XOR\n2 1 72579 72547 72515 AND\n2 1 72515 2964 86853 XOR\n2 1 2900 2932 72451 XOR\n2 1 84837 107447 15125 XOR\n2 1 15124 15125 15123 AND\n2 1 15123 107447 107448 XOR\n2 1 107479 107448 2901 XOR\n2 1 84838 107448 15128 XOR\n2 1 90982 107448 15127 XOR\n2 1 15127 15128 15126 AND\n2 1 15126 107448 107449 XOR\n2 1 107480 107449 2902 XOR\n2 1 90983 107449 15130 XOR\n2 1 84839 107449 15131 XOR\n2 1 15130 15131 15129 AND\n2 1 15129 107449 107450 XOR\n2 1 107481 107450 2903 XOR\n2 1 90984 107450 15133 XOR\n2 1 84840 107450 15134 XOR\n2 1 15133 15134 15132 AND\n2 1 15132 107450 107451 XOR\n2 1 90985 107451 15136 XOR\n2 1 84841 107451 15137 XOR\n2 1 107482 107451 2904 XOR\n2 1 15136 15137 15135 AND\n2 1 15135 107451 107452 XOR\n2 1 107483 107452 2905 XOR\n2 1 2905 2969 72584 XOR\n2 1 2904 2968 72583 XOR\n2 1 2903 2967 72582 XOR\n2 1 2902 2966 72581 XOR\n2 1 2901 2965 72580 XOR\n2 1 72584 72552 72520 AND\n2 1 72583 72551 72519 AND\n2 1 72582 72550 72518 AND\n2 1 72581 72549 72517 AND\n2 1 72580 72548 72516 AND\n2 1 72520 2969 86858 XOR\n2 1 72519 2968 86857 XOR\n2 1 72518 2967 86856 XOR\n2 1 72517 2966 86855 XOR\n2 1 72516 2965 86854 XOR\n2 1 2905 2937 72456 XOR\n2 1 2904 2936 72455 XOR\n2 1 2903 2935 72454 XOR\n2 1 2902 2934 72453 XOR\n2 1 2901 2933 72452 XOR\n2 1 2905 2884 68006 XOR\n2 1 2904 2883 68005 XOR\n2 1 2903 2882 68004 XOR\n2 1 2901 2880 68002 XOR\n2 1 2894 2905 67995 XOR\n2 1 2893 2904 67994 XOR\n2 1 2892 2903 67993 XOR\n2 1 2891 2902 67992 XOR\n2 1 2890 2901 67991 XOR\n2 1 2889 2900 67990 XOR\n2 1 68013 2900 88911 XOR\n2 1 68006 2893 88904 XOR\n2 1 88904 86856 120178 XOR\n2 1 68005 2892 88903 XOR\n2 1 88903 86855 120177 XOR\n2 1 68004 2891 88902 XOR\n2 1 88902 86854 120176 XOR\n2 1 68002 2889 88900 XOR\n2 1 88900 86852 120174 XOR\n2 1 67995 2882 88893 XOR\n2 1 88893 86845 120167 XOR\n2 1 67993 2880 88891 XOR\n2 1 88891 86843 120165 XOR\n2 1 67986 2905 88884 XOR\n2 1 88884 86836 120158 XOR\n2 1 67985 2904 88883 XOR\n2 1 88883 86835 120157 XOR\n2 1 67984 2903 88882 XOR\n2 1 67983 2902 88881 XOR\n2 1 88881 86833 120125 AND\n2 1 88881 86833 84785 XOR\n2 1 88882 120125 36793 XOR\n2 1 84842 107452 15140 XOR\n2 1 90986 107452 15139 XOR\n2 1 15139 15140 15138 AND\n2 1 15138 107452 107453 XOR\n2 1 84843 107453 15143 XOR\n2 1 90987 107453 15142 XOR\n2 1 107484 107453 2906 XOR\n2 1 2906 2970 72585 XOR\n2 1 72585 72553 72521 AND\n2 1 72521 2970 86859 XOR\n2 1 2906 2938 72457 XOR\n2 1 2906 2885 68007 XOR\n2 1 2895 2906 67996 XOR\n2 1 68007 2894 88905 XOR\n2 1 88905 86857 120179 XOR\n2 1 67996 2883 88894 XOR\n2 1 88894 86846 120168 XOR\n",
"2 1 67987 2906 88885 XOR\n2 1 88885 86837 120159 XOR\n2 1 15142 15143 15141 AND\n2 1 15141 107453 107454 XOR\n2 1 90988 107454 15145 XOR\n2 1 84844 107454 15146 XOR\n2 1 15145 15146 15144 AND\n2 1 15144 107454 107455 XOR\n2 1 107486 107455 2908 XOR\n2 1 90989 107455 15148 XOR\n2 1 84845 107455 15149 XOR\n2 1 15148 15149 15147 AND\n2 1 15147 107455 107456 XOR\n2 1 107487 107456 2909 XOR\n2 1 84846 107456 15152 XOR\n2 1 90990 107456 15151 XOR\n2 1 15151 15152 15150 AND\n2 1 15150 107456 107457 XOR\n2 1 107488 107457 2910 XOR\n2 1 84847 107457 15155 XOR\n2 1 90991 107457 15154 XOR\n2 1 15154 15155 15153 AND\n2 1 15153 107457 107458 XOR\n2 1 107489 107458 2911 XOR\n2 1 2911 2975 72590 XOR\n2 1 2910 2974 72589 XOR\n2 1 2909 2973 72588 XOR\n2 1 2908 2972 72587 XOR\n2 1 72590 72558 72526 AND\n2 1 72589 72557 72525 AND\n2 1 72588 72556 72524 AND\n2 1 72587 72555 72523 AND\n2 1 72526 2975 86864 XOR\n2 1 72525 2974 86863 XOR\n2 1 88911 86863 120185 XOR\n2 1 72524 2973 86862 XOR\n2 1 72523 2972 86861 XOR\n2 1 2911 2943 72462 XOR\n2 1 2910 2942 72461 XOR\n2 1 2909 2941 72460 XOR\n2 1 2908 2940 72459 XOR\n2 1 107485 107454 2907 XOR\n2 1 2907 2971 72586 XOR\n2 1 72586 72554 72522 AND\n2 1 72522 2971 86860 XOR\n2 1 2907 2939 72458 XOR\n2 1 2911 2890 68012 XOR\n2 1 2910 2889 68011 XOR\n2 1 2909 2888 68010 XOR\n2 1 2908 2887 68009 XOR\n2 1 2907 2886 68008 XOR\n2 1 2900 2911 68001 XOR\n2 1 2899 2910 68000 XOR\n2 1 2898 2909 67999 XOR\n2 1 2897 2908 67998 XOR\n2 1 2896 2907 67997 XOR\n2 1 68012 2899 88910 XOR\n2 1 88910 86862 120184 XOR\n2 1 68011 2898 88909 XOR\n2 1 88909 86861 120183 XOR\n2 1 68010 2897 88908 XOR\n2 1 88908 86860 120182 XOR\n2 1 68009 2896 88907 XOR\n2 1 88907 86859 120181 XOR\n2 1 68008 2895 88906 XOR\n2 1 88906 86858 120180 XOR\n2 1 68001 2888 88899 XOR\n2 1 88899 86851 120173 XOR\n2 1 68000 2887 88898 XOR\n2 1 88898 86850 120172 XOR\n2 1 67999 2886 88897 XOR\n2 1 88897 86849 120171 XOR\n2 1 67998 2885 88896 XOR\n2 1 88896 86848 120170 XOR\n2 1 67997 2884 88895 XOR\n2 1 88895 86847 120169 XOR\n2 1 67992 2911 88890 XOR\n2 1 88890 86842 120164 XOR\n2 1 67991 2910 88889 XOR\n2 1 88889 86841 120163 XOR\n2 1 67990 2909 88888 XOR\n2 1 88888 86840 120162 XOR\n2 1 67989 2908 88887 XOR\n2 1 88887 86839 120161 XOR\n2 1 67988 2907 88886 XOR\n2 1 88886 86838 120160 XOR\n2 1 107459 107428 2881 XOR\n2 1 2881 2945 72560 XOR\n2 1 72560 72528 72496 AND\n2 1 72496 2945 86834 XOR\n2 1 88882 86834 120156 XOR\n2 1 120156 120125 84786 XOR\n2 1 86834 120125 36794 XOR\n2 1 36793 36794 36792 AND\n2 1 36792 120125 120126 XOR\n2 1 120157 120126 84787 XOR\n2 1 88883 120126 36796 XOR\n2 1 86835 120126 36797 XOR\n2 1 36796 36797 36795 AND\n2 1 36795 120126 120127 XOR\n2 1 120158 120127 84788 XOR\n2 1 88884 120127 36799 XOR\n2 1 86836 120127 36800 XOR\n2 1 36799 36800 36798 AND\n2 1 36798 120127 120128 XOR\n2 1 120159 120128 84789 XOR\n2 1 88885 120128 36802 XOR\n2 1 86837 120128 36803 XOR\n2 1 36802 36803 36801 AND\n2 1 36801 120128 120129 XOR\n2 1 120160 120129 84790 XOR\n2 1 88886 120129 36805 XOR\n2 1 86838 120129 36806 XOR\n2 1 36805 36806 36804 AND\n2 1 36804 120129 120130 XOR\n2 1 120161 120130 84791 XOR\n2 1 88887 120130 36808 XOR\n2 1 86839 120130 36809 XOR\n2 1 36808 36809 36807 AND\n2 1 36807 120130 120131 XOR\n2 1 120162 120131 84792 XOR\n2 1 88888 120131 36811 XOR\n2 1 86840 120131 36812 XOR\n2 1 36811 36812 36810 AND\n2 1 36810 120131 120132 XOR\n2 1 120163 120132 84793 XOR\n2 1 88889 120132 36814 XOR\n2 1 86841 120132 36815 XOR\n",
"2 1 36814 36815 36813 AND\n2 1 36813 120132 120133 XOR\n2 1 120164 120133 84794 XOR\n2 1 88890 120133 36817 XOR\n2 1 86842 120133 36818 XOR\n2 1 36817 36818 36816 AND\n2 1 36816 120133 120134 XOR\n2 1 120165 120134 84795 XOR\n2 1 88891 120134 36820 XOR\n2 1 86843 120134 36821 XOR\n2 1 36820 36821 36819 AND\n2 1 36819 120134 120135 XOR\n2 1 86844 120135 36824 XOR\n2 1 2881 2913 72432 XOR\n2 1 2881 2892 68014 XOR\n2 1 2902 2881 68003 XOR\n2 1 68014 2901 88912 XOR\n2 1 88912 86864 120186 XOR\n2 1 68003 2890 88901 XOR\n2 1 88901 86853 120175 XOR\n2 1 67994 2881 88892 XOR\n2 1 88892 86844 120166 XOR\n2 1 120166 120135 84796 XOR\n2 1 88892 120135 36823 XOR\n2 1 36823 36824 36822 AND\n2 1 36822 120135 120136 XOR\n2 1 120167 120136 84797 XOR\n2 1 88893 120136 36826 XOR\n2 1 86845 120136 36827 XOR\n2 1 36826 36827 36825 AND\n2 1 36825 120136 120137 XOR\n2 1 120168 120137 84798 XOR\n2 1 88894 120137 36829 XOR\n2 1 86846 120137 36830 XOR\n2 1 36829 36830 36828 AND\n2 1 36828 120137 120138 XOR\n2 1 120169 120138 84799 XOR\n2 1 88895 120138 36832 XOR\n2 1 86847 120138 36833 XOR\n2 1 36832 36833 36831 AND\n2 1 36831 120138 120139 XOR\n2 1 120170 120139 84800 XOR\n2 1 88896 120139 36835 XOR\n2 1 86848 120139 36836 XOR\n2 1 36835 36836 36834 AND\n2 1 36834 120139 120140 XOR\n2 1 120171 120140 84801 XOR\n2 1 88897 120140 36838 XOR\n2 1 86849 120140 36839 XOR\n2 1 36838 36839 36837 AND\n2 1 36837 120140 120141 XOR\n2 1 120172 120141 84802 XOR\n2 1 88898 120141 36841 XOR\n2 1 86850 120141 36842 XOR\n2 1 36841 36842 36840 AND\n2 1 36840 120141 120142 XOR\n2 1 120173 120142 84803 XOR\n2 1 88899 120142 36844 XOR\n2 1 86851 120142 36845 XOR\n2 1 36844 36845 36843 AND\n2 1 36843 120142 120143 XOR\n2 1 120174 120143 84804 XOR\n2 1 88900 120143 36847 XOR\n2 1 86852 120143 36848 XOR\n2 1 36847 36848 36846 AND\n2 1 36846 120143 120144 XOR\n2 1 120175 120144 84805 XOR\n2 1 88901 120144 36850 XOR\n2 1 86853 120144 36851 XOR\n2 1 36850 36851 36849 AND\n2 1 36849 120144 120145 XOR\n2 1 120176 120145 84806 XOR\n2 1 88902 120145 36853 XOR\n2 1 86854 120145 36854 XOR\n2 1 36853 36854 36852 AND\n2 1 36852 120145 120146 XOR\n2 1 120177 120146 84807 XOR\n2 1 88903 120146 36856 XOR\n2 1 86855 120146 36857 XOR\n2 1 36856 36857 36855 AND\n2 1 36855 120146 120147 XOR\n2 1 120178 120147 84808 XOR\n2 1 88904 120147 36859 XOR\n2 1 86856 120147 36860 XOR\n2 1 36859 36860 36858 AND\n2 1 36858 120147 120148 XOR\n2 1 120179 120148 84809 XOR\n2 1 88905 120148 36862 XOR\n2 1 86857 120148 36863 XOR\n2 1 36862 36863 36861 AND\n2 1 36861 120148 120149 XOR\n2 1 120180 120149 84810 XOR\n2 1 88906 120149 36865 XOR\n2 1 86858 120149 36866 XOR\n2 1 36865 36866 36864 AND\n2 1 36864 120149 120150 XOR\n2 1 120181 120150 84811 XOR\n2 1 88907 120150 36868 XOR\n2 1 86859 120150 36869 XOR\n2 1 36868 36869 36867 AND\n2 1 36867 120150 120151 XOR\n2 1 120182 120151 84812 XOR\n2 1 88908 120151 36871 XOR\n2 1 86860 120151 36872 XOR\n2 1 36871 36872 36870 AND\n2 1 36870 120151 120152 XOR\n2 1 120183 120152 84813 XOR\n2 1 88909 120152 36874 XOR\n2 1 86861 120152 36875 XOR\n2 1 36874 36875 36873 AND\n2 1 36873 120152 120153 XOR\n2 1 120184 120153 84814 XOR\n2 1 88910 120153 36877 XOR\n2 1 86862 120153 36878 XOR\n2 1 36877 36878 36876 AND\n2 1 36876 120153 120154 XOR\n2 1 120185 120154 84815 XOR\n2 1 88911 120154 36880 XOR\n2 1 86863 120154 36881 XOR\n2 1 36880 36881 36879 AND\n2 1 36879 120154 120155 XOR\n2 1 120186 120155 84816 XOR\n2 1 3397 3402 62094 XOR\n2 1 3396 3401 62093 XOR\n2 1 3395 3400 62092 XOR\n2 1 3394 3399 62091 XOR\n2 1 3393 3398 62090 XOR\n2 1 3392 3397 62089 XOR\n",
"2 1 3423 3396 62088 XOR\n2 1 3422 3395 62087 XOR\n2 1 3421 3394 62086 XOR\n2 1 3420 3393 62085 XOR\n2 1 3419 3392 62084 XOR\n2 1 3418 3423 62083 XOR\n2 1 3417 3422 62082 XOR\n2 1 3416 3421 62081 XOR\n2 1 3415 3420 62080 XOR\n2 1 3414 3419 62079 XOR\n2 1 3413 3418 62078 XOR\n2 1 3412 3417 62077 XOR\n2 1 3411 3416 62076 XOR\n2 1 3410 3415 62075 XOR\n2 1 3409 3414 62074 XOR\n2 1 3408 3413 62073 XOR\n2 1 3407 3412 62072 XOR\n2 1 3406 3411 62071 XOR\n2 1 3405 3410 62070 XOR\n2 1 3404 3409 62069 XOR\n2 1 3403 3408 62068 XOR\n2 1 3402 3407 62067 XOR\n2 1 3401 3406 62066 XOR\n2 1 3400 3405 62065 XOR\n2 1 3399 3404 62064 XOR\n2 1 3398 3403 62063 XOR\n2 1 62094 3416 101141 XOR\n2 1 101141 99093 120385 XOR\n2 1 62093 3415 101140 XOR\n2 1 101140 99092 120384 XOR\n2 1 62092 3414 101139 XOR\n2 1 101139 99091 120383 XOR\n2 1 62091 3413 101138 XOR\n2 1 101138 99090 120382 XOR\n2 1 62090 3412 101137 XOR\n2 1 101137 99089 120381 XOR\n2 1 62089 3411 101136 XOR\n2 1 101136 99088 120380 XOR\n2 1 62088 3410 101135 XOR\n2 1 101135 99087 120379 XOR\n2 1 62087 3409 101134 XOR\n2 1 101134 99086 120378 XOR\n2 1 62086 3408 101133 XOR\n2 1 101133 99085 120377 XOR\n2 1 62085 3407 101132 XOR\n2 1 101132 99084 120376 XOR\n2 1 62084 3406 101131 XOR\n2 1 101131 99083 120375 XOR\n2 1 62083 3405 101130 XOR\n2 1 101130 99082 120374 XOR\n2 1 62082 3404 101129 XOR\n2 1 101129 99081 120373 XOR\n2 1 62081 3403 101128 XOR\n2 1 101128 99080 120372 XOR\n2 1 62080 3402 101127 XOR\n2 1 101127 99079 120371 XOR\n2 1 62079 3401 101126 XOR\n2 1 101126 99078 120370 XOR\n2 1 62078 3400 101125 XOR\n2 1 101125 99077 120369 XOR\n2 1 62077 3399 101124 XOR\n2 1 101124 99076 120368 XOR\n2 1 62076 3398 101123 XOR\n2 1 101123 99075 120367 XOR\n2 1 62075 3397 101122 XOR\n2 1 101122 99074 120366 XOR\n2 1 62074 3396 101121 XOR\n2 1 101121 99073 120365 XOR\n2 1 62073 3395 101120 XOR\n2 1 101120 99072 120364 XOR\n2 1 62072 3394 101119 XOR\n2 1 101119 99071 120363 XOR\n2 1 62071 3393 101118 XOR\n2 1 101118 99070 120362 XOR\n2 1 62070 3392 101117 XOR\n2 1 101117 99069 120361 XOR\n2 1 62069 3423 101116 XOR\n2 1 101116 99068 120360 XOR\n2 1 62068 3422 101115 XOR\n2 1 101115 99067 120359 XOR\n2 1 62067 3421 101114 XOR\n2 1 101114 99066 120358 XOR\n2 1 62066 3420 101113 XOR\n2 1 101113 99065 120357 XOR\n2 1 62065 3419 101112 XOR\n2 1 101112 99064 120356 XOR\n2 1 62064 3418 101111 XOR\n2 1 101111 99063 120355 XOR\n2 1 62063 3417 101110 XOR\n2 1 101110 99062 120324 AND\n2 1 101110 99062 97014 XOR\n2 1 120355 120324 97015 XOR\n2 1 101111 120324 37145 XOR\n2 1 99063 120324 37146 XOR\n2 1 37145 37146 37144 AND\n2 1 37144 120324 120325 XOR\n2 1 120356 120325 97016 XOR\n2 1 101112 120325 37148 XOR\n2 1 99064 120325 37149 XOR\n2 1 37148 37149 37147 AND\n2 1 37147 120325 120326 XOR\n2 1 120357 120326 97017 XOR\n2 1 101113 120326 37151 XOR\n2 1 99065 120326 37152 XOR\n2 1 37151 37152 37150 AND\n2 1 37150 120326 120327 XOR\n2 1 120358 120327 97018 XOR\n2 1 101114 120327 37154 XOR\n2 1 99066 120327 37155 XOR\n2 1 37154 37155 37153 AND\n2 1 37153 120327 120328 XOR\n2 1 120359 120328 97019 XOR\n2 1 101115 120328 37157 XOR\n2 1 99067 120328 37158 XOR\n2 1 37157 37158 37156 AND\n2 1 37156 120328 120329 XOR\n2 1 120360 120329 97020 XOR\n2 1 101116 120329 37160 XOR\n2 1 99068 120329 37161 XOR\n2 1 37160 37161 37159 AND\n2 1 37159 120329 120330 XOR\n2 1 120361 120330 97021 XOR\n2 1 101117 120330 37163 XOR\n2 1 99069 120330 37164 XOR\n2 1 37163 37164 37162 AND\n2 1 37162 120330 120331 XOR\n2 1 120362 120331 97022 XOR\n2 1 101118 120331 37166 XOR\n",
"2 1 99070 120331 37167 XOR\n2 1 37166 37167 37165 AND\n2 1 37165 120331 120332 XOR\n2 1 120363 120332 97023 XOR\n2 1 101119 120332 37169 XOR\n2 1 99071 120332 37170 XOR\n2 1 37169 37170 37168 AND\n2 1 37168 120332 120333 XOR\n2 1 120364 120333 97024 XOR\n2 1 101120 120333 37172 XOR\n2 1 99072 120333 37173 XOR\n2 1 37172 37173 37171 AND\n2 1 37171 120333 120334 XOR\n2 1 120365 120334 97025 XOR\n2 1 101121 120334 37175 XOR\n2 1 99073 120334 37176 XOR\n2 1 37175 37176 37174 AND\n2 1 37174 120334 120335 XOR\n2 1 120366 120335 97026 XOR\n2 1 101122 120335 37178 XOR\n2 1 99074 120335 37179 XOR\n2 1 37178 37179 37177 AND\n2 1 37177 120335 120336 XOR\n2 1 120367 120336 97027 XOR\n2 1 101123 120336 37181 XOR\n2 1 99075 120336 37182 XOR\n2 1 37181 37182 37180 AND\n2 1 37180 120336 120337 XOR\n2 1 120368 120337 97028 XOR\n2 1 101124 120337 37184 XOR\n2 1 99076 120337 37185 XOR\n2 1 37184 37185 37183 AND\n2 1 37183 120337 120338 XOR\n2 1 120369 120338 97029 XOR\n2 1 101125 120338 37187 XOR\n2 1 99077 120338 37188 XOR\n2 1 37187 37188 37186 AND\n2 1 37186 120338 120339 XOR\n2 1 120370 120339 97030 XOR\n2 1 101126 120339 37190 XOR\n2 1 99078 120339 37191 XOR\n2 1 37190 37191 37189 AND\n2 1 37189 120339 120340 XOR\n2 1 120371 120340 97031 XOR\n2 1 101127 120340 37193 XOR\n2 1 99079 120340 37194 XOR\n2 1 37193 37194 37192 AND\n2 1 37192 120340 120341 XOR\n2 1 120372 120341 97032 XOR\n2 1 101128 120341 37196 XOR\n2 1 99080 120341 37197 XOR\n2 1 37196 37197 37195 AND\n2 1 37195 120341 120342 XOR\n2 1 120373 120342 97033 XOR\n2 1 101129 120342 37199 XOR\n2 1 99081 120342 37200 XOR\n2 1 37199 37200 37198 AND\n2 1 37198 120342 120343 XOR\n2 1 120374 120343 97034 XOR\n2 1 101130 120343 37202 XOR\n2 1 99082 120343 37203 XOR\n2 1 37202 37203 37201 AND\n2 1 37201 120343 120344 XOR\n2 1 120375 120344 97035 XOR\n2 1 101131 120344 37205 XOR\n2 1 99083 120344 37206 XOR\n2 1 37205 37206 37204 AND\n2 1 37204 120344 120345 XOR\n2 1 120376 120345 97036 XOR\n2 1 101132 120345 37208 XOR\n2 1 99084 120345 37209 XOR\n2 1 37208 37209 37207 AND\n2 1 37207 120345 120346 XOR\n2 1 120377 120346 97037 XOR\n2 1 101133 120346 37211 XOR\n2 1 99085 120346 37212 XOR\n2 1 37211 37212 37210 AND\n2 1 37210 120346 120347 XOR\n2 1 120378 120347 97038 XOR\n2 1 101134 120347 37214 XOR\n2 1 99086 120347 37215 XOR\n2 1 37214 37215 37213 AND\n2 1 37213 120347 120348 XOR\n2 1 120379 120348 97039 XOR\n2 1 101135 120348 37217 XOR\n2 1 99087 120348 37218 XOR\n2 1 37217 37218 37216 AND\n2 1 37216 120348 120349 XOR\n2 1 120380 120349 97040 XOR\n2 1 101136 120349 37220 XOR\n2 1 99088 120349 37221 XOR\n2 1 37220 37221 37219 AND\n2 1 37219 120349 120350 XOR\n2 1 120381 120350 97041 XOR\n2 1 101137 120350 37223 XOR\n2 1 99089 120350 37224 XOR\n2 1 37223 37224 37222 AND\n2 1 37222 120350 120351 XOR\n2 1 120382 120351 97042 XOR\n2 1 101138 120351 37226 XOR\n2 1 99090 120351 37227 XOR\n2 1 37226 37227 37225 AND\n2 1 37225 120351 120352 XOR\n2 1 120383 120352 97043 XOR\n2 1 101139 120352 37229 XOR\n2 1 99091 120352 37230 XOR\n2 1 37229 37230 37228 AND\n2 1 37228 120352 120353 XOR\n2 1 120384 120353 97044 XOR\n2 1 101140 120353 37232 XOR\n2 1 99092 120353 37233 XOR\n2 1 37232 37233 37231 AND\n2 1 37231 120353 120354 XOR\n2 1 120385 120354 97045 XOR\n2 1 76929 76931 81744 XOR\n2 1 81744 77104 133848 XOR\n2 1 76928 76930 81743 XOR\n2 1 81743 77103 133847 XOR\n2 1 76927 76929 81742 XOR\n2 1 81742 77102 133846 XOR\n2 1 76926 76928 81741 XOR\n2 1 81741 77101 133845 XOR\n2 1 76925 76927 81740 XOR\n2 1 81740 77100 133844 XOR\n2 1 76924 76926 81739 XOR\n2 1 81739 77099 133843 XOR\n2 1 76923 76925 81738 XOR\n2 1 81738 77098 133842 XOR\n",
"2 1 76922 76924 81737 XOR\n2 1 81737 77097 133841 XOR\n2 1 76921 76923 81736 XOR\n2 1 81736 77096 133840 XOR\n2 1 76920 76922 81735 XOR\n2 1 81735 77095 133839 XOR\n2 1 76919 76921 6991 XOR\n2 1 76918 76920 6990 XOR\n2 1 76917 76919 6989 XOR\n2 1 76916 76918 6988 XOR\n2 1 76915 76917 6987 XOR\n2 1 76914 76916 6986 XOR\n2 1 76913 76915 6985 XOR\n2 1 76944 76914 6984 XOR\n2 1 76943 76913 6983 XOR\n2 1 76942 76944 6982 XOR\n2 1 76941 76943 6981 XOR\n2 1 76940 76942 6980 XOR\n2 1 76939 76941 6979 XOR\n2 1 76938 76940 6978 XOR\n2 1 76937 76939 6977 XOR\n2 1 76936 76938 6976 XOR\n2 1 76935 76937 6975 XOR\n2 1 76934 76936 6974 XOR\n2 1 76933 76935 6973 XOR\n2 1 76932 76934 6972 XOR\n2 1 76931 76933 6971 XOR\n2 1 76930 76932 6970 XOR\n2 1 6991 76944 81734 XOR\n2 1 81734 77094 133838 XOR\n2 1 6990 76943 81733 XOR\n2 1 81733 77093 133837 XOR\n2 1 6989 76942 81732 XOR\n2 1 81732 77092 133836 XOR\n2 1 6988 76941 81731 XOR\n2 1 81731 77091 133835 XOR\n2 1 6987 76940 81730 XOR\n2 1 81730 77090 133834 XOR\n2 1 6986 76939 81729 XOR\n2 1 81729 77089 133833 XOR\n2 1 6985 76938 81728 XOR\n2 1 81728 77088 133832 XOR\n2 1 6984 76937 81727 XOR\n2 1 81727 77087 133831 XOR\n2 1 6983 76936 81726 XOR\n2 1 81726 77086 133830 XOR\n2 1 6982 76935 81725 XOR\n2 1 81725 77085 133829 XOR\n2 1 6981 76934 81724 XOR\n2 1 81724 77084 133828 XOR\n2 1 6980 76933 81723 XOR\n2 1 81723 77083 133827 XOR\n2 1 6979 76932 81722 XOR\n2 1 81722 77082 133826 XOR\n2 1 6978 76931 81721 XOR\n2 1 81721 77081 133825 XOR\n2 1 6977 76930 81720 XOR\n2 1 81720 77080 133824 XOR\n2 1 6976 76929 81719 XOR\n2 1 81719 77079 133823 XOR\n2 1 6975 76928 81718 XOR\n2 1 81718 77078 133822 XOR\n2 1 6974 76927 81717 XOR\n2 1 81717 77077 133821 XOR\n2 1 6973 76926 81716 XOR\n2 1 81716 77076 133820 XOR\n2 1 6972 76925 81715 XOR\n2 1 81715 77075 133819 XOR\n2 1 6971 76924 81714 XOR\n2 1 81714 77074 133818 XOR\n2 1 6970 76923 81713 XOR\n2 1 81713 77073 133787 AND\n2 1 81713 77073 80177 XOR\n2 1 80177 78641 133663 AND\n2 1 80177 78641 76849 XOR\n2 1 76849 3488 120262 AND\n2 1 76849 3488 94966 XOR\n2 1 97014 94966 120200 AND\n2 1 97014 94966 90929 XOR\n2 1 97015 120200 36965 XOR\n2 1 3489 120262 37056 XOR\n2 1 90929 84785 107304 AND\n2 1 90929 84785 2848 XOR\n2 1 84786 107304 14888 XOR\n2 1 78642 133663 58477 XOR\n2 1 133818 133787 80178 XOR\n2 1 80178 78642 133694 XOR\n2 1 133694 133663 76850 XOR\n2 1 76850 3489 120293 XOR\n2 1 120293 120262 94967 XOR\n2 1 97015 94967 120231 XOR\n2 1 120231 120200 92938 XOR\n1 1 92938 90930 INV\n2 1 94967 120200 36966 XOR\n2 1 36965 36966 36964 AND\n2 1 36964 120200 120201 XOR\n2 1 97016 120201 36968 XOR\n2 1 76850 120262 37055 XOR\n2 1 37055 37056 37054 AND\n2 1 37054 120262 120263 XOR\n2 1 3490 120263 37059 XOR\n2 1 90930 84786 107335 XOR\n2 1 107335 107304 2849 XOR\n2 1 90930 107304 14887 XOR\n2 1 14887 14888 14886 AND\n2 1 14886 107304 107305 XOR\n2 1 84787 107305 14891 XOR\n2 1 80178 133663 58476 XOR\n2 1 58476 58477 58475 AND\n2 1 58475 133663 133664 XOR\n2 1 78643 133664 58480 XOR\n2 1 81714 133787 58656 XOR\n2 1 77074 133787 58657 XOR\n2 1 58656 58657 58655 AND\n2 1 58655 133787 133788 XOR\n2 1 133819 133788 80179 XOR\n2 1 80179 78643 133695 XOR\n2 1 133695 133664 76851 XOR\n2 1 76851 3490 120294 XOR\n2 1 120294 120263 94968 XOR\n2 1 97016 94968 120232 XOR\n2 1 120232 120201 92939 XOR\n2 1 92939 92938 90931 XOR\n2 1 90931 92938 36882 AND\n2 1 36882 92938 36884 XOR\n2 1 94968 120201 36969 XOR\n2 1 36968 36969 36967 AND\n2 1 36967 120201 120202 XOR\n",
"2 1 97017 120202 36971 XOR\n2 1 76851 120263 37058 XOR\n2 1 37058 37059 37057 AND\n2 1 37057 120263 120264 XOR\n2 1 3491 120264 37062 XOR\n2 1 90931 84787 107336 XOR\n2 1 107336 107305 2850 XOR\n2 1 90931 107305 14890 XOR\n2 1 14890 14891 14889 AND\n2 1 14889 107305 107306 XOR\n2 1 84788 107306 14894 XOR\n2 1 80179 133664 58479 XOR\n2 1 58479 58480 58478 AND\n2 1 58478 133664 133665 XOR\n2 1 78644 133665 58483 XOR\n2 1 81715 133788 58659 XOR\n2 1 77075 133788 58660 XOR\n2 1 58659 58660 58658 AND\n2 1 58658 133788 133789 XOR\n2 1 133820 133789 80180 XOR\n2 1 80180 78644 133696 XOR\n2 1 133696 133665 76852 XOR\n2 1 76852 3491 120295 XOR\n2 1 120295 120264 94969 XOR\n2 1 97017 94969 120233 XOR\n2 1 120233 120202 92940 XOR\n2 1 92940 36884 90932 XOR\n2 1 90932 36884 36883 AND\n2 1 36883 36884 120187 XOR\n1 1 120187 36887 INV\n2 1 94969 120202 36972 XOR\n2 1 36971 36972 36970 AND\n2 1 36970 120202 120203 XOR\n2 1 97018 120203 36974 XOR\n2 1 76852 120264 37061 XOR\n2 1 37061 37062 37060 AND\n2 1 37060 120264 120265 XOR\n2 1 3492 120265 37065 XOR\n2 1 90932 107306 14893 XOR\n2 1 90932 84788 107337 XOR\n2 1 14893 14894 14892 AND\n2 1 14892 107306 107307 XOR\n2 1 107337 107306 2851 XOR\n2 1 80180 133665 58482 XOR\n2 1 58482 58483 58481 AND\n2 1 58481 133665 133666 XOR\n2 1 78645 133666 58486 XOR\n2 1 81716 133789 58662 XOR\n2 1 77076 133789 58663 XOR\n2 1 58662 58663 58661 AND\n2 1 58661 133789 133790 XOR\n2 1 133821 133790 80181 XOR\n2 1 80181 78645 133697 XOR\n2 1 133697 133666 76853 XOR\n2 1 76853 3492 120296 XOR\n2 1 120296 120265 94970 XOR\n2 1 97018 94970 120234 XOR\n2 1 120234 120203 92941 XOR\n1 1 92941 36951 INV\n2 1 36951 120187 90933 XOR\n2 1 92941 120187 36886 XOR\n2 1 36886 36887 36885 AND\n2 1 36885 120187 36889 XOR\n2 1 94970 120203 36975 XOR\n2 1 36974 36975 36973 AND\n2 1 36973 120203 120204 XOR\n2 1 97019 120204 36977 XOR\n2 1 76853 120265 37064 XOR\n2 1 37064 37065 37063 AND\n2 1 37063 120265 120266 XOR\n2 1 3493 120266 37068 XOR\n2 1 90933 84789 107338 XOR\n2 1 80181 133666 58485 XOR\n2 1 58485 58486 58484 AND\n2 1 58484 133666 133667 XOR\n2 1 78646 133667 58489 XOR\n2 1 81717 133790 58665 XOR\n2 1 77077 133790 58666 XOR\n2 1 58665 58666 58664 AND\n2 1 58664 133790 133791 XOR\n2 1 133822 133791 80182 XOR\n2 1 80182 78646 133698 XOR\n2 1 133698 133667 76854 XOR\n2 1 76854 3493 120297 XOR\n2 1 120297 120266 94971 XOR\n2 1 97019 94971 120235 XOR\n2 1 120235 120204 92942 XOR\n2 1 92942 36889 90934 XOR\n2 1 90934 36889 36888 AND\n2 1 36888 36889 120188 XOR\n1 1 120188 36892 INV\n2 1 94971 120204 36978 XOR\n2 1 36977 36978 36976 AND\n2 1 36976 120204 120205 XOR\n2 1 97020 120205 36980 XOR\n2 1 76854 120266 37067 XOR\n2 1 37067 37068 37066 AND\n2 1 37066 120266 120267 XOR\n2 1 3494 120267 37071 XOR\n2 1 90934 84790 107339 XOR\n2 1 80182 133667 58488 XOR\n2 1 58488 58489 58487 AND\n2 1 58487 133667 133668 XOR\n2 1 78647 133668 58492 XOR\n2 1 81718 133791 58668 XOR\n2 1 77078 133791 58669 XOR\n2 1 58668 58669 58667 AND\n2 1 58667 133791 133792 XOR\n2 1 133823 133792 80183 XOR\n2 1 80183 78647 133699 XOR\n2 1 133699 133668 76855 XOR\n2 1 76855 3494 120298 XOR\n2 1 120298 120267 94972 XOR\n2 1 97020 94972 120236 XOR\n2 1 120236 120205 92943 XOR\n1 1 92943 36952 INV\n2 1 36952 120188 90935 XOR\n2 1 92943 120188 36891 XOR\n2 1 36891 36892 36890 AND\n2 1 36890 120188 36894 XOR\n2 1 94972 120205 36981 XOR\n2 1 36980 36981 36979 AND\n2 1 36979 120205 120206 XOR\n2 1 97021 120206 36983 XOR\n2 1 76855 120267 37070 XOR\n2 1 37070 37071 37069 AND\n2 1 37069 120267 120268 XOR\n2 1 3495 120268 37074 XOR\n",
"2 1 90935 84791 107340 XOR\n2 1 80183 133668 58491 XOR\n2 1 58491 58492 58490 AND\n2 1 58490 133668 133669 XOR\n2 1 78648 133669 58495 XOR\n2 1 81719 133792 58671 XOR\n2 1 77079 133792 58672 XOR\n2 1 58671 58672 58670 AND\n2 1 58670 133792 133793 XOR\n2 1 133824 133793 80184 XOR\n2 1 80184 78648 133700 XOR\n2 1 133700 133669 76856 XOR\n2 1 76856 3495 120299 XOR\n2 1 120299 120268 94973 XOR\n2 1 97021 94973 120237 XOR\n2 1 120237 120206 92944 XOR\n2 1 92944 36894 90936 XOR\n2 1 90936 36894 36893 AND\n2 1 36893 36894 120189 XOR\n1 1 120189 36897 INV\n2 1 94973 120206 36984 XOR\n2 1 36983 36984 36982 AND\n2 1 36982 120206 120207 XOR\n2 1 97022 120207 36986 XOR\n2 1 76856 120268 37073 XOR\n2 1 37073 37074 37072 AND\n2 1 37072 120268 120269 XOR\n2 1 3496 120269 37077 XOR\n2 1 90936 84792 107341 XOR\n2 1 80184 133669 58494 XOR\n2 1 58494 58495 58493 AND\n2 1 58493 133669 133670 XOR\n2 1 78649 133670 58498 XOR\n2 1 81720 133793 58674 XOR\n2 1 77080 133793 58675 XOR\n2 1 58674 58675 58673 AND\n2 1 58673 133793 133794 XOR\n2 1 133825 133794 80185 XOR\n2 1 80185 78649 133701 XOR\n2 1 133701 133670 76857 XOR\n2 1 76857 3496 120300 XOR\n2 1 120300 120269 94974 XOR\n2 1 97022 94974 120238 XOR\n2 1 120238 120207 92945 XOR\n1 1 92945 36953 INV\n2 1 36953 120189 90937 XOR\n2 1 92945 120189 36896 XOR\n2 1 36896 36897 36895 AND\n2 1 36895 120189 36899 XOR\n2 1 94974 120207 36987 XOR\n2 1 36986 36987 36985 AND\n2 1 36985 120207 120208 XOR\n2 1 97023 120208 36989 XOR\n2 1 76857 120269 37076 XOR\n2 1 37076 37077 37075 AND\n2 1 37075 120269 120270 XOR\n2 1 3497 120270 37080 XOR\n2 1 90937 84793 107342 XOR\n2 1 80185 133670 58497 XOR\n2 1 58497 58498 58496 AND\n2 1 58496 133670 133671 XOR\n2 1 78650 133671 58501 XOR\n2 1 81721 133794 58677 XOR\n2 1 77081 133794 58678 XOR\n2 1 58677 58678 58676 AND\n2 1 58676 133794 133795 XOR\n2 1 133826 133795 80186 XOR\n2 1 80186 78650 133702 XOR\n2 1 133702 133671 76858 XOR\n2 1 76858 3497 120301 XOR\n2 1 120301 120270 94975 XOR\n2 1 97023 94975 120239 XOR\n2 1 120239 120208 92946 XOR\n2 1 92946 36899 90938 XOR\n2 1 90938 36899 36898 AND\n2 1 36898 36899 36901 XOR\n2 1 94975 120208 36990 XOR\n2 1 36989 36990 36988 AND\n2 1 36988 120208 120209 XOR\n2 1 97024 120209 36992 XOR\n2 1 76858 120270 37079 XOR\n2 1 37079 37080 37078 AND\n2 1 37078 120270 120271 XOR\n2 1 3498 120271 37083 XOR\n2 1 90938 84794 107343 XOR\n2 1 80186 133671 58500 XOR\n2 1 58500 58501 58499 AND\n2 1 58499 133671 133672 XOR\n2 1 78651 133672 58504 XOR\n2 1 81722 133795 58680 XOR\n2 1 77082 133795 58681 XOR\n2 1 58680 58681 58679 AND\n2 1 58679 133795 133796 XOR\n2 1 133827 133796 80187 XOR\n2 1 80187 78651 133703 XOR\n2 1 133703 133672 76859 XOR\n2 1 76859 3498 120302 XOR\n2 1 120302 120271 94976 XOR\n2 1 97024 94976 120240 XOR\n2 1 120240 120209 92947 XOR\n2 1 92947 36901 90939 XOR\n2 1 90939 36901 36900 AND\n2 1 36900 36901 36903 XOR\n2 1 94976 120209 36993 XOR\n2 1 36992 36993 36991 AND\n2 1 36991 120209 120210 XOR\n2 1 97025 120210 36995 XOR\n2 1 76859 120271 37082 XOR\n2 1 37082 37083 37081 AND\n2 1 37081 120271 120272 XOR\n2 1 3499 120272 37086 XOR\n2 1 2986 90939 107282 XOR\n2 1 90939 84795 107344 XOR\n2 1 80187 133672 58503 XOR\n2 1 58503 58504 58502 AND\n2 1 58502 133672 133673 XOR\n2 1 78652 133673 58507 XOR\n2 1 81723 133796 58683 XOR\n2 1 77083 133796 58684 XOR\n2 1 58683 58684 58682 AND\n2 1 58682 133796 133797 XOR\n2 1 133828 133797 80188 XOR\n2 1 80188 78652 133704 XOR\n2 1 133704 133673 76860 XOR\n2 1 76860 3499 120303 XOR\n2 1 120303 120272 94977 XOR\n2 1 97025 94977 120241 XOR\n2 1 120241 120210 92948 XOR\n",
"2 1 92948 36903 90940 XOR\n2 1 90940 36903 36902 AND\n2 1 36902 36903 120190 XOR\n1 1 120190 36906 INV\n2 1 94977 120210 36996 XOR\n2 1 36995 36996 36994 AND\n2 1 36994 120210 120211 XOR\n2 1 97026 120211 36998 XOR\n2 1 76860 120272 37085 XOR\n2 1 37085 37086 37084 AND\n2 1 37084 120272 120273 XOR\n2 1 3500 120273 37089 XOR\n2 1 2987 90940 107283 XOR\n2 1 90940 84796 107345 XOR\n2 1 80188 133673 58506 XOR\n2 1 58506 58507 58505 AND\n2 1 58505 133673 133674 XOR\n2 1 78653 133674 58510 XOR\n2 1 81724 133797 58686 XOR\n2 1 77084 133797 58687 XOR\n2 1 58686 58687 58685 AND\n2 1 58685 133797 133798 XOR\n2 1 133829 133798 80189 XOR\n2 1 80189 78653 133705 XOR\n2 1 133705 133674 76861 XOR\n2 1 76861 3500 120304 XOR\n2 1 120304 120273 94978 XOR\n2 1 97026 94978 120242 XOR\n2 1 120242 120211 92949 XOR\n1 1 92949 36954 INV\n2 1 36954 120190 90941 XOR\n2 1 92949 120190 36905 XOR\n2 1 36905 36906 36904 AND\n2 1 36904 120190 36908 XOR\n2 1 94978 120211 36999 XOR\n2 1 36998 36999 36997 AND\n2 1 36997 120211 120212 XOR\n2 1 97027 120212 37001 XOR\n2 1 76861 120273 37088 XOR\n2 1 37088 37089 37087 AND\n2 1 37087 120273 120274 XOR\n2 1 3501 120274 37092 XOR\n2 1 2988 90941 107284 XOR\n2 1 80189 133674 58509 XOR\n2 1 58509 58510 58508 AND\n2 1 58508 133674 133675 XOR\n2 1 78654 133675 58513 XOR\n2 1 81725 133798 58689 XOR\n2 1 77085 133798 58690 XOR\n2 1 58689 58690 58688 AND\n2 1 58688 133798 133799 XOR\n2 1 133830 133799 80190 XOR\n2 1 80190 78654 133706 XOR\n2 1 133706 133675 76862 XOR\n2 1 76862 3501 120305 XOR\n2 1 120305 120274 94979 XOR\n2 1 97027 94979 120243 XOR\n2 1 120243 120212 92950 XOR\n2 1 92950 36908 90942 XOR\n2 1 90942 36908 36907 AND\n2 1 36907 36908 120191 XOR\n1 1 120191 36911 INV\n2 1 94979 120212 37002 XOR\n2 1 37001 37002 37000 AND\n2 1 37000 120212 120213 XOR\n2 1 97028 120213 37004 XOR\n2 1 76862 120274 37091 XOR\n2 1 37091 37092 37090 AND\n2 1 37090 120274 120275 XOR\n2 1 3502 120275 37095 XOR\n2 1 2989 90942 107285 XOR\n2 1 80190 133675 58512 XOR\n2 1 58512 58513 58511 AND\n2 1 58511 133675 133676 XOR\n2 1 78655 133676 58516 XOR\n2 1 81726 133799 58692 XOR\n2 1 77086 133799 58693 XOR\n2 1 58692 58693 58691 AND\n2 1 58691 133799 133800 XOR\n2 1 133831 133800 80191 XOR\n2 1 80191 78655 133707 XOR\n2 1 133707 133676 76863 XOR\n2 1 76863 3502 120306 XOR\n2 1 120306 120275 94980 XOR\n2 1 97028 94980 120244 XOR\n2 1 120244 120213 92951 XOR\n1 1 92951 36955 INV\n2 1 36955 120191 90943 XOR\n2 1 92951 120191 36910 XOR\n2 1 36910 36911 36909 AND\n2 1 36909 120191 36913 XOR\n2 1 94980 120213 37005 XOR\n2 1 37004 37005 37003 AND\n2 1 37003 120213 120214 XOR\n2 1 97029 120214 37007 XOR\n2 1 76863 120275 37094 XOR\n2 1 37094 37095 37093 AND\n2 1 37093 120275 120276 XOR\n2 1 3503 120276 37098 XOR\n2 1 2990 90943 107286 XOR\n2 1 80191 133676 58515 XOR\n2 1 58515 58516 58514 AND\n2 1 58514 133676 133677 XOR\n2 1 78656 133677 58519 XOR\n2 1 81727 133800 58695 XOR\n2 1 77087 133800 58696 XOR\n2 1 58695 58696 58694 AND\n2 1 58694 133800 133801 XOR\n2 1 133832 133801 80192 XOR\n2 1 80192 78656 133708 XOR\n2 1 133708 133677 76864 XOR\n2 1 76864 3503 120307 XOR\n2 1 120307 120276 94981 XOR\n2 1 97029 94981 120245 XOR\n2 1 120245 120214 92952 XOR\n2 1 92952 36913 90944 XOR\n2 1 90944 36913 36912 AND\n2 1 36912 36913 36915 XOR\n2 1 94981 120214 37008 XOR\n2 1 37007 37008 37006 AND\n2 1 37006 120214 120215 XOR\n2 1 97030 120215 37010 XOR\n2 1 76864 120276 37097 XOR\n2 1 37097 37098 37096 AND\n2 1 37096 120276 120277 XOR\n2 1 3504 120277 37101 XOR\n2 1 2991 90944 107287 XOR\n2 1 80192 133677 58518 XOR\n",
"2 1 58518 58519 58517 AND\n2 1 58517 133677 133678 XOR\n2 1 78657 133678 58522 XOR\n2 1 81728 133801 58698 XOR\n2 1 77088 133801 58699 XOR\n2 1 58698 58699 58697 AND\n2 1 58697 133801 133802 XOR\n2 1 133833 133802 80193 XOR\n2 1 80193 78657 133709 XOR\n2 1 133709 133678 76865 XOR\n2 1 76865 3504 120308 XOR\n2 1 120308 120277 94982 XOR\n2 1 97030 94982 120246 XOR\n2 1 120246 120215 92953 XOR\n2 1 92953 36915 90945 XOR\n2 1 90945 36915 36914 AND\n2 1 36914 36915 120192 XOR\n1 1 120192 36918 INV\n2 1 94982 120215 37011 XOR\n2 1 37010 37011 37009 AND\n2 1 37009 120215 120216 XOR\n2 1 97031 120216 37013 XOR\n2 1 76865 120277 37100 XOR\n2 1 37100 37101 37099 AND\n2 1 37099 120277 120278 XOR\n2 1 3505 120278 37104 XOR\n2 1 2992 90945 107288 XOR\n2 1 80193 133678 58521 XOR\n2 1 58521 58522 58520 AND\n2 1 58520 133678 133679 XOR\n2 1 78658 133679 58525 XOR\n2 1 81729 133802 58701 XOR\n2 1 77089 133802 58702 XOR\n2 1 58701 58702 58700 AND\n2 1 58700 133802 133803 XOR\n2 1 133834 133803 80194 XOR\n2 1 80194 78658 133710 XOR\n2 1 133710 133679 76866 XOR\n2 1 76866 3505 120309 XOR\n2 1 120309 120278 94983 XOR\n2 1 97031 94983 120247 XOR\n2 1 120247 120216 92954 XOR\n1 1 92954 36956 INV\n2 1 36956 120192 90946 XOR\n2 1 92954 120192 36917 XOR\n2 1 36917 36918 36916 AND\n2 1 36916 120192 120193 XOR\n1 1 120193 36921 INV\n2 1 94983 120216 37014 XOR\n2 1 37013 37014 37012 AND\n2 1 37012 120216 120217 XOR\n2 1 97032 120217 37016 XOR\n2 1 76866 120278 37103 XOR\n2 1 37103 37104 37102 AND\n2 1 37102 120278 120279 XOR\n2 1 3506 120279 37107 XOR\n2 1 2993 90946 107289 XOR\n2 1 80194 133679 58524 XOR\n2 1 58524 58525 58523 AND\n2 1 58523 133679 133680 XOR\n2 1 78659 133680 58528 XOR\n2 1 81730 133803 58704 XOR\n2 1 77090 133803 58705 XOR\n2 1 58704 58705 58703 AND\n2 1 58703 133803 133804 XOR\n2 1 133835 133804 80195 XOR\n2 1 80195 78659 133711 XOR\n2 1 133711 133680 76867 XOR\n2 1 76867 3506 120310 XOR\n2 1 120310 120279 94984 XOR\n2 1 97032 94984 120248 XOR\n2 1 120248 120217 92955 XOR\n1 1 92955 36957 INV\n2 1 36957 120193 90947 XOR\n2 1 92955 120193 36920 XOR\n2 1 36920 36921 36919 AND\n2 1 36919 120193 120194 XOR\n1 1 120194 36924 INV\n2 1 94984 120217 37017 XOR\n2 1 37016 37017 37015 AND\n2 1 37015 120217 120218 XOR\n2 1 97033 120218 37019 XOR\n2 1 76867 120279 37106 XOR\n2 1 37106 37107 37105 AND\n2 1 37105 120279 120280 XOR\n2 1 3507 120280 37110 XOR\n2 1 2994 90947 107290 XOR\n2 1 80195 133680 58527 XOR\n2 1 58527 58528 58526 AND\n2 1 58526 133680 133681 XOR\n2 1 78660 133681 58531 XOR\n2 1 81731 133804 58707 XOR\n2 1 77091 133804 58708 XOR\n2 1 58707 58708 58706 AND\n2 1 58706 133804 133805 XOR\n2 1 133836 133805 80196 XOR\n2 1 80196 78660 133712 XOR\n2 1 133712 133681 76868 XOR\n2 1 76868 3507 120311 XOR\n2 1 120311 120280 94985 XOR\n2 1 97033 94985 120249 XOR\n2 1 120249 120218 92956 XOR\n1 1 92956 36958 INV\n2 1 36958 120194 90948 XOR\n2 1 92956 120194 36923 XOR\n2 1 36923 36924 36922 AND\n2 1 36922 120194 120195 XOR\n1 1 120195 36927 INV\n2 1 94985 120218 37020 XOR\n2 1 37019 37020 37018 AND\n2 1 37018 120218 120219 XOR\n2 1 97034 120219 37022 XOR\n2 1 76868 120280 37109 XOR\n2 1 37109 37110 37108 AND\n2 1 37108 120280 120281 XOR\n2 1 3508 120281 37113 XOR\n2 1 2995 90948 107291 XOR\n2 1 80196 133681 58530 XOR\n2 1 58530 58531 58529 AND\n2 1 58529 133681 133682 XOR\n2 1 78661 133682 58534 XOR\n2 1 81732 133805 58710 XOR\n2 1 77092 133805 58711 XOR\n2 1 58710 58711 58709 AND\n2 1 58709 133805 133806 XOR\n2 1 133837 133806 80197 XOR\n2 1 80197 78661 133713 XOR\n2 1 133713 133682 76869 XOR\n",
"2 1 76869 3508 120312 XOR\n2 1 120312 120281 94986 XOR\n2 1 97034 94986 120250 XOR\n2 1 120250 120219 92957 XOR\n1 1 92957 36959 INV\n2 1 36959 120195 90949 XOR\n2 1 92957 120195 36926 XOR\n2 1 36926 36927 36925 AND\n2 1 36925 120195 120196 XOR\n1 1 120196 36930 INV\n2 1 94986 120219 37023 XOR\n2 1 37022 37023 37021 AND\n2 1 37021 120219 120220 XOR\n2 1 97035 120220 37025 XOR\n2 1 76869 120281 37112 XOR\n2 1 37112 37113 37111 AND\n2 1 37111 120281 120282 XOR\n2 1 3509 120282 37116 XOR\n2 1 90949 84805 107354 XOR\n2 1 2996 90949 107292 XOR\n2 1 80197 133682 58533 XOR\n2 1 58533 58534 58532 AND\n2 1 58532 133682 133683 XOR\n2 1 78662 133683 58537 XOR\n2 1 81733 133806 58713 XOR\n2 1 77093 133806 58714 XOR\n2 1 58713 58714 58712 AND\n2 1 58712 133806 133807 XOR\n2 1 133838 133807 80198 XOR\n2 1 80198 78662 133714 XOR\n2 1 133714 133683 76870 XOR\n2 1 76870 3509 120313 XOR\n2 1 120313 120282 94987 XOR\n2 1 97035 94987 120251 XOR\n2 1 120251 120220 92958 XOR\n1 1 92958 36960 INV\n2 1 36960 120196 90950 XOR\n2 1 92958 120196 36929 XOR\n2 1 36929 36930 36928 AND\n2 1 36928 120196 36932 XOR\n2 1 94987 120220 37026 XOR\n2 1 37025 37026 37024 AND\n2 1 37024 120220 120221 XOR\n2 1 97036 120221 37028 XOR\n2 1 76870 120282 37115 XOR\n2 1 37115 37116 37114 AND\n2 1 37114 120282 120283 XOR\n2 1 3510 120283 37119 XOR\n2 1 90950 84806 107355 XOR\n2 1 2997 90950 107293 XOR\n2 1 80198 133683 58536 XOR\n2 1 58536 58537 58535 AND\n2 1 58535 133683 133684 XOR\n2 1 78663 133684 58540 XOR\n2 1 81734 133807 58716 XOR\n2 1 77094 133807 58717 XOR\n2 1 58716 58717 58715 AND\n2 1 58715 133807 133808 XOR\n2 1 133839 133808 80199 XOR\n2 1 80199 78663 133715 XOR\n2 1 133715 133684 76871 XOR\n2 1 76871 3510 120314 XOR\n2 1 120314 120283 94988 XOR\n2 1 97036 94988 120252 XOR\n2 1 120252 120221 92959 XOR\n2 1 92959 36932 90951 XOR\n2 1 90951 36932 36931 AND\n2 1 36931 36932 36934 XOR\n2 1 94988 120221 37029 XOR\n2 1 37028 37029 37027 AND\n2 1 37027 120221 120222 XOR\n2 1 97037 120222 37031 XOR\n2 1 76871 120283 37118 XOR\n2 1 37118 37119 37117 AND\n2 1 37117 120283 120284 XOR\n2 1 3511 120284 37122 XOR\n2 1 2998 90951 107294 XOR\n2 1 80199 133684 58539 XOR\n2 1 58539 58540 58538 AND\n2 1 58538 133684 133685 XOR\n2 1 78664 133685 58543 XOR\n2 1 81735 133808 58719 XOR\n2 1 77095 133808 58720 XOR\n2 1 58719 58720 58718 AND\n2 1 58718 133808 133809 XOR\n2 1 133840 133809 80200 XOR\n2 1 80200 78664 133716 XOR\n2 1 133716 133685 76872 XOR\n2 1 76872 3511 120315 XOR\n2 1 120315 120284 94989 XOR\n2 1 97037 94989 120253 XOR\n2 1 120253 120222 92960 XOR\n2 1 92960 36934 90952 XOR\n2 1 90952 36934 36933 AND\n2 1 36933 36934 36936 XOR\n2 1 94989 120222 37032 XOR\n2 1 37031 37032 37030 AND\n2 1 37030 120222 120223 XOR\n2 1 97038 120223 37034 XOR\n2 1 76872 120284 37121 XOR\n2 1 37121 37122 37120 AND\n2 1 37120 120284 120285 XOR\n2 1 3512 120285 37125 XOR\n2 1 2999 90952 107295 XOR\n2 1 80200 133685 58542 XOR\n2 1 58542 58543 58541 AND\n2 1 58541 133685 133686 XOR\n2 1 78665 133686 58546 XOR\n2 1 81736 133809 58722 XOR\n2 1 77096 133809 58723 XOR\n2 1 58722 58723 58721 AND\n2 1 58721 133809 133810 XOR\n2 1 133841 133810 80201 XOR\n2 1 80201 78665 133717 XOR\n2 1 133717 133686 76873 XOR\n2 1 76873 3512 120316 XOR\n2 1 120316 120285 94990 XOR\n2 1 97038 94990 120254 XOR\n2 1 120254 120223 92961 XOR\n2 1 92961 36936 90953 XOR\n2 1 90953 36936 36935 AND\n2 1 36935 36936 36938 XOR\n2 1 94990 120223 37035 XOR\n2 1 37034 37035 37033 AND\n2 1 37033 120223 120224 XOR\n2 1 97039 120224 37037 XOR\n2 1 76873 120285 37124 XOR\n2 1 37124 37125 37123 AND\n",
"2 1 37123 120285 120286 XOR\n2 1 3513 120286 37128 XOR\n2 1 90953 84809 107358 XOR\n2 1 3000 90953 107296 XOR\n2 1 80201 133686 58545 XOR\n2 1 58545 58546 58544 AND\n2 1 58544 133686 133687 XOR\n2 1 78666 133687 58549 XOR\n2 1 81737 133810 58725 XOR\n2 1 77097 133810 58726 XOR\n2 1 58725 58726 58724 AND\n2 1 58724 133810 133811 XOR\n2 1 133842 133811 80202 XOR\n2 1 80202 78666 133718 XOR\n2 1 133718 133687 76874 XOR\n2 1 76874 3513 120317 XOR\n2 1 120317 120286 94991 XOR\n2 1 97039 94991 120255 XOR\n2 1 120255 120224 92962 XOR\n2 1 92962 36938 90954 XOR\n2 1 90954 36938 36937 AND\n2 1 36937 36938 36940 XOR\n2 1 94991 120224 37038 XOR\n2 1 37037 37038 37036 AND\n2 1 37036 120224 120225 XOR\n2 1 97040 120225 37040 XOR\n2 1 76874 120286 37127 XOR\n2 1 37127 37128 37126 AND\n2 1 37126 120286 120287 XOR\n2 1 3514 120287 37131 XOR\n2 1 90954 84810 107359 XOR\n2 1 3001 90954 107297 XOR\n2 1 80202 133687 58548 XOR\n2 1 58548 58549 58547 AND\n2 1 58547 133687 133688 XOR\n2 1 78667 133688 58552 XOR\n2 1 81738 133811 58728 XOR\n2 1 77098 133811 58729 XOR\n2 1 58728 58729 58727 AND\n2 1 58727 133811 133812 XOR\n2 1 133843 133812 80203 XOR\n2 1 80203 78667 133719 XOR\n2 1 133719 133688 76875 XOR\n2 1 76875 3514 120318 XOR\n2 1 120318 120287 94992 XOR\n2 1 97040 94992 120256 XOR\n2 1 120256 120225 92963 XOR\n2 1 92963 36940 90955 XOR\n2 1 90955 36940 36939 AND\n2 1 36939 36940 120197 XOR\n1 1 120197 36943 INV\n2 1 94992 120225 37041 XOR\n2 1 37040 37041 37039 AND\n2 1 37039 120225 120226 XOR\n2 1 97041 120226 37043 XOR\n2 1 76875 120287 37130 XOR\n2 1 37130 37131 37129 AND\n2 1 37129 120287 120288 XOR\n2 1 3515 120288 37134 XOR\n2 1 90955 84811 107360 XOR\n2 1 3002 90955 107298 XOR\n2 1 80203 133688 58551 XOR\n2 1 58551 58552 58550 AND\n2 1 58550 133688 133689 XOR\n2 1 78668 133689 58555 XOR\n2 1 81739 133812 58731 XOR\n2 1 77099 133812 58732 XOR\n2 1 58731 58732 58730 AND\n2 1 58730 133812 133813 XOR\n2 1 133844 133813 80204 XOR\n2 1 80204 78668 133720 XOR\n2 1 133720 133689 76876 XOR\n2 1 76876 3515 120319 XOR\n2 1 120319 120288 94993 XOR\n2 1 97041 94993 120257 XOR\n2 1 120257 120226 92964 XOR\n1 1 92964 36961 INV\n2 1 36961 120197 90956 XOR\n2 1 92964 120197 36942 XOR\n2 1 36942 36943 36941 AND\n2 1 36941 120197 120198 XOR\n1 1 120198 36946 INV\n2 1 94993 120226 37044 XOR\n2 1 37043 37044 37042 AND\n2 1 37042 120226 120227 XOR\n2 1 97042 120227 37046 XOR\n2 1 76876 120288 37133 XOR\n2 1 37133 37134 37132 AND\n2 1 37132 120288 120289 XOR\n2 1 3516 120289 37137 XOR\n2 1 90956 84812 107361 XOR\n2 1 3003 90956 107299 XOR\n2 1 80204 133689 58554 XOR\n2 1 58554 58555 58553 AND\n2 1 58553 133689 133690 XOR\n2 1 78669 133690 58558 XOR\n2 1 81740 133813 58734 XOR\n2 1 77100 133813 58735 XOR\n2 1 58734 58735 58733 AND\n2 1 58733 133813 133814 XOR\n2 1 133845 133814 80205 XOR\n2 1 80205 78669 133721 XOR\n2 1 133721 133690 76877 XOR\n2 1 76877 3516 120320 XOR\n2 1 120320 120289 94994 XOR\n2 1 97042 94994 120258 XOR\n2 1 120258 120227 92965 XOR\n1 1 92965 36962 INV\n2 1 36962 120198 90957 XOR\n2 1 92965 120198 36945 XOR\n2 1 36945 36946 36944 AND\n2 1 36944 120198 36948 XOR\n2 1 94994 120227 37047 XOR\n2 1 37046 37047 37045 AND\n2 1 37045 120227 120228 XOR\n2 1 97043 120228 37049 XOR\n2 1 76877 120289 37136 XOR\n2 1 37136 37137 37135 AND\n2 1 37135 120289 120290 XOR\n2 1 3517 120290 37140 XOR\n2 1 90957 84813 107362 XOR\n2 1 3004 90957 107300 XOR\n2 1 80205 133690 58557 XOR\n2 1 58557 58558 58556 AND\n2 1 58556 133690 133691 XOR\n2 1 78670 133691 58561 XOR\n2 1 81741 133814 58737 XOR\n2 1 77101 133814 58738 XOR\n",
"2 1 58737 58738 58736 AND\n2 1 58736 133814 133815 XOR\n2 1 133846 133815 80206 XOR\n2 1 80206 78670 133722 XOR\n2 1 133722 133691 76878 XOR\n2 1 76878 3517 120321 XOR\n2 1 120321 120290 94995 XOR\n2 1 97043 94995 120259 XOR\n2 1 120259 120228 92966 XOR\n2 1 92966 36948 90958 XOR\n2 1 90958 36948 36947 AND\n2 1 36947 36948 36950 XOR\n2 1 94995 120228 37050 XOR\n2 1 37049 37050 37048 AND\n2 1 37048 120228 120229 XOR\n2 1 97044 120229 37052 XOR\n2 1 76878 120290 37139 XOR\n2 1 37139 37140 37138 AND\n2 1 37138 120290 120291 XOR\n2 1 3518 120291 37143 XOR\n2 1 90958 84814 107363 XOR\n2 1 3005 90958 107301 XOR\n2 1 80206 133691 58560 XOR\n2 1 58560 58561 58559 AND\n2 1 58559 133691 133692 XOR\n2 1 78671 133692 58564 XOR\n2 1 81742 133815 58740 XOR\n2 1 77102 133815 58741 XOR\n2 1 58740 58741 58739 AND\n2 1 58739 133815 133816 XOR\n2 1 133847 133816 80207 XOR\n2 1 80207 78671 133723 XOR\n2 1 133723 133692 76879 XOR\n2 1 76879 3518 120322 XOR\n2 1 120322 120291 94996 XOR\n2 1 97044 94996 120260 XOR\n2 1 120260 120229 92967 XOR\n2 1 92967 36950 90959 XOR\n2 1 90959 36950 36949 AND\n2 1 36949 36950 120199 XOR\n2 1 94996 120229 37053 XOR\n2 1 37052 37053 37051 AND\n2 1 37051 120229 120230 XOR\n2 1 76879 120291 37142 XOR\n2 1 37142 37143 37141 AND\n2 1 37141 120291 120292 XOR\n2 1 3006 90959 107302 XOR\n2 1 90959 84815 107364 XOR\n2 1 80207 133692 58563 XOR\n2 1 58563 58564 58562 AND\n2 1 58562 133692 133693 XOR\n2 1 81743 133816 58743 XOR\n2 1 77103 133816 58744 XOR\n2 1 58743 58744 58742 AND\n2 1 58742 133816 133817 XOR\n2 1 133848 133817 80208 XOR\n2 1 80208 78672 133724 XOR\n2 1 133724 133693 76880 XOR\n2 1 76880 3519 120323 XOR\n2 1 120323 120292 94997 XOR\n2 1 97045 94997 120261 XOR\n2 1 120261 120230 92968 XOR\n1 1 92968 36963 INV\n2 1 36963 120199 90960 XOR\n2 1 90960 84816 107365 XOR\n2 1 90944 84800 107349 XOR\n2 1 90947 84803 107352 XOR\n2 1 3007 90960 107303 XOR\n2 1 90943 84799 107348 XOR\n2 1 2979 90932 107275 XOR\n2 1 2851 2915 72466 XOR\n2 1 2850 2914 72465 XOR\n2 1 2849 2913 72464 XOR\n2 1 2848 2912 72463 XOR\n2 1 72466 72434 72402 AND\n2 1 72465 72433 72401 AND\n2 1 72464 72432 72400 AND\n2 1 72463 72431 72399 AND\n2 1 72402 2915 86804 XOR\n2 1 72401 2914 86803 XOR\n2 1 72400 2913 86802 XOR\n2 1 72399 2912 86801 XOR\n2 1 2851 2883 72338 XOR\n2 1 2850 2882 72337 XOR\n2 1 2849 2881 72336 XOR\n2 1 2848 2880 72335 XOR\n2 1 84789 107307 14897 XOR\n2 1 90952 84808 107357 XOR\n2 1 107338 107307 2852 XOR\n2 1 2852 2916 72467 XOR\n2 1 72467 72435 72403 AND\n2 1 72403 2916 86805 XOR\n2 1 2852 2884 72339 XOR\n2 1 90941 84797 107346 XOR\n2 1 2977 90930 107273 XOR\n2 1 2976 90929 107242 AND\n2 1 107273 107242 3361 XOR\n2 1 2977 107242 14797 XOR\n2 1 2978 90931 107274 XOR\n2 1 2976 90929 3360 XOR\n2 1 90930 107242 14798 XOR\n2 1 14797 14798 14796 AND\n2 1 14796 107242 107243 XOR\n2 1 90931 107243 14801 XOR\n2 1 2978 107243 14800 XOR\n2 1 14800 14801 14799 AND\n2 1 14799 107243 107244 XOR\n2 1 90932 107244 14804 XOR\n2 1 2979 107244 14803 XOR\n2 1 14803 14804 14802 AND\n2 1 14802 107244 107245 XOR\n2 1 90933 107245 14807 XOR\n2 1 2980 107245 14806 XOR\n2 1 14806 14807 14805 AND\n2 1 14805 107245 107246 XOR\n2 1 2981 107246 14809 XOR\n2 1 90934 107246 14810 XOR\n2 1 14809 14810 14808 AND\n2 1 14808 107246 107247 XOR\n2 1 90935 107247 14813 XOR\n2 1 2982 107247 14812 XOR\n2 1 14812 14813 14811 AND\n2 1 14811 107247 107248 XOR\n2 1 107275 107244 3363 XOR\n2 1 90936 107248 14816 XOR\n2 1 2983 107248 14815 XOR\n2 1 14815 14816 14814 AND\n2 1 14814 107248 107249 XOR\n",
"2 1 90942 84798 107347 XOR\n2 1 90945 84801 107350 XOR\n2 1 90933 107307 14896 XOR\n2 1 14896 14897 14895 AND\n2 1 14895 107307 107308 XOR\n2 1 107339 107308 2853 XOR\n2 1 84790 107308 14900 XOR\n2 1 90934 107308 14899 XOR\n2 1 14899 14900 14898 AND\n2 1 14898 107308 107309 XOR\n2 1 90935 107309 14902 XOR\n2 1 84791 107309 14903 XOR\n2 1 14902 14903 14901 AND\n2 1 14901 107309 107310 XOR\n2 1 107341 107310 2855 XOR\n2 1 84792 107310 14906 XOR\n2 1 90936 107310 14905 XOR\n2 1 14905 14906 14904 AND\n2 1 14904 107310 107311 XOR\n2 1 107342 107311 2856 XOR\n2 1 84793 107311 14909 XOR\n2 1 90937 107311 14908 XOR\n2 1 14908 14909 14907 AND\n2 1 14907 107311 107312 XOR\n2 1 107343 107312 2857 XOR\n2 1 84794 107312 14912 XOR\n2 1 90938 107312 14911 XOR\n2 1 14911 14912 14910 AND\n2 1 14910 107312 107313 XOR\n2 1 90939 107313 14914 XOR\n2 1 84795 107313 14915 XOR\n2 1 14914 14915 14913 AND\n2 1 14913 107313 107314 XOR\n2 1 107344 107313 2858 XOR\n2 1 90940 107314 14917 XOR\n2 1 107340 107309 2854 XOR\n2 1 2858 2922 72473 XOR\n2 1 2857 2921 72472 XOR\n2 1 2856 2920 72471 XOR\n2 1 2855 2919 72470 XOR\n2 1 2854 2918 72469 XOR\n2 1 2853 2917 72468 XOR\n2 1 72473 72441 72409 AND\n2 1 72472 72440 72408 AND\n2 1 72471 72439 72407 AND\n2 1 72470 72438 72406 AND\n2 1 72469 72437 72405 AND\n2 1 72468 72436 72404 AND\n2 1 72409 2922 86811 XOR\n2 1 72408 2921 86810 XOR\n2 1 72407 2920 86809 XOR\n2 1 72406 2919 86808 XOR\n2 1 72405 2918 86807 XOR\n2 1 72404 2917 86806 XOR\n2 1 2858 2890 72345 XOR\n2 1 2857 2889 72344 XOR\n2 1 2856 2888 72343 XOR\n2 1 2855 2887 72342 XOR\n2 1 2854 2886 72341 XOR\n2 1 2853 2885 72340 XOR\n2 1 107345 107314 2859 XOR\n2 1 2859 2923 72474 XOR\n2 1 72474 72442 72410 AND\n2 1 72410 2923 86812 XOR\n2 1 2859 2891 72346 XOR\n2 1 2848 2859 67981 XOR\n2 1 90946 84802 107351 XOR\n2 1 84796 107314 14918 XOR\n2 1 14917 14918 14916 AND\n2 1 14916 107314 107315 XOR\n2 1 84797 107315 14921 XOR\n2 1 107346 107315 2860 XOR\n2 1 2860 2924 72475 XOR\n2 1 72475 72443 72411 AND\n2 1 72411 2924 86813 XOR\n2 1 2860 2892 72347 XOR\n2 1 2849 2860 67982 XOR\n2 1 65298 3363 65266 AND\n2 1 65296 3361 65264 AND\n2 1 65295 3360 65263 AND\n2 1 65266 3427 99033 XOR\n2 1 65264 3425 99031 XOR\n2 1 65263 3424 99030 XOR\n2 1 3363 3395 65234 XOR\n2 1 3361 3393 65232 XOR\n2 1 3360 3392 65231 XOR\n2 1 2984 107249 14818 XOR\n2 1 2980 90933 107276 XOR\n2 1 107276 107245 3364 XOR\n2 1 65299 3364 65267 AND\n2 1 65267 3428 99034 XOR\n2 1 3364 3396 65235 XOR\n2 1 107274 107243 3362 XOR\n2 1 65297 3362 65265 AND\n2 1 65265 3426 99032 XOR\n2 1 3362 3394 65233 XOR\n2 1 2983 90936 107279 XOR\n2 1 107279 107248 3367 XOR\n2 1 65302 3367 65270 AND\n2 1 65270 3431 99037 XOR\n2 1 3367 3399 65238 XOR\n2 1 2984 90937 107280 XOR\n2 1 107280 107249 3368 XOR\n2 1 65303 3368 65271 AND\n2 1 65271 3432 99038 XOR\n2 1 3368 3400 65239 XOR\n2 1 2981 90934 107277 XOR\n2 1 107277 107246 3365 XOR\n2 1 65300 3365 65268 AND\n2 1 65268 3429 99035 XOR\n2 1 3365 3397 65236 XOR\n2 1 2982 90935 107278 XOR\n2 1 107278 107247 3366 XOR\n2 1 65301 3366 65269 AND\n2 1 65269 3430 99036 XOR\n2 1 3366 3398 65237 XOR\n2 1 2985 90938 107281 XOR\n2 1 90937 107249 14819 XOR\n2 1 14818 14819 14817 AND\n2 1 14817 107249 107250 XOR\n2 1 90938 107250 14822 XOR\n2 1 107281 107250 3369 XOR\n2 1 65304 3369 65272 AND\n2 1 65272 3433 99039 XOR\n2 1 3369 3401 65240 XOR\n2 1 2985 107250 14821 XOR\n2 1 14821 14822 14820 AND\n2 1 14820 107250 107251 XOR\n",
"2 1 107282 107251 3370 XOR\n2 1 2986 107251 14824 XOR\n2 1 90939 107251 14825 XOR\n2 1 14824 14825 14823 AND\n2 1 14823 107251 107252 XOR\n2 1 107283 107252 3371 XOR\n2 1 90940 107252 14828 XOR\n2 1 2987 107252 14827 XOR\n2 1 14827 14828 14826 AND\n2 1 14826 107252 107253 XOR\n2 1 107284 107253 3372 XOR\n2 1 90941 107253 14831 XOR\n2 1 2988 107253 14830 XOR\n2 1 14830 14831 14829 AND\n2 1 14829 107253 107254 XOR\n2 1 90942 107254 14834 XOR\n2 1 2989 107254 14833 XOR\n2 1 14833 14834 14832 AND\n2 1 107285 107254 3373 XOR\n2 1 14832 107254 107255 XOR\n2 1 90943 107255 14837 XOR\n2 1 2990 107255 14836 XOR\n2 1 107286 107255 3374 XOR\n2 1 14836 14837 14835 AND\n2 1 14835 107255 107256 XOR\n2 1 107287 107256 3375 XOR\n2 1 90944 107256 14840 XOR\n2 1 2991 107256 14839 XOR\n2 1 14839 14840 14838 AND\n2 1 65310 3375 65278 AND\n2 1 65309 3374 65277 AND\n2 1 65308 3373 65276 AND\n2 1 65307 3372 65275 AND\n2 1 65306 3371 65274 AND\n2 1 65305 3370 65273 AND\n2 1 65278 3439 99045 XOR\n2 1 65277 3438 99044 XOR\n2 1 65276 3437 99043 XOR\n2 1 65275 3436 99042 XOR\n2 1 65274 3435 99041 XOR\n2 1 65273 3434 99040 XOR\n2 1 3375 3407 65246 XOR\n2 1 3374 3406 65245 XOR\n2 1 3373 3405 65244 XOR\n2 1 3372 3404 65243 XOR\n2 1 3371 3403 65242 XOR\n2 1 3370 3402 65241 XOR\n2 1 14838 107256 107257 XOR\n2 1 2992 107257 14842 XOR\n2 1 90945 107257 14843 XOR\n2 1 14842 14843 14841 AND\n2 1 107288 107257 3376 XOR\n2 1 65311 3376 65279 AND\n2 1 65279 3440 99046 XOR\n2 1 3376 3408 65247 XOR\n2 1 14841 107257 107258 XOR\n2 1 107289 107258 3377 XOR\n2 1 90946 107258 14846 XOR\n2 1 2993 107258 14845 XOR\n2 1 14845 14846 14844 AND\n2 1 14844 107258 107259 XOR\n2 1 107290 107259 3378 XOR\n2 1 2994 107259 14848 XOR\n2 1 90947 107259 14849 XOR\n2 1 14848 14849 14847 AND\n2 1 14847 107259 107260 XOR\n2 1 2995 107260 14851 XOR\n2 1 107291 107260 3379 XOR\n2 1 90948 107260 14852 XOR\n2 1 14851 14852 14850 AND\n2 1 14850 107260 107261 XOR\n2 1 107292 107261 3380 XOR\n2 1 2996 107261 14854 XOR\n2 1 90949 107261 14855 XOR\n2 1 14854 14855 14853 AND\n2 1 14853 107261 107262 XOR\n2 1 107293 107262 3381 XOR\n2 1 2997 107262 14857 XOR\n2 1 65316 3381 65284 AND\n2 1 65315 3380 65283 AND\n2 1 65314 3379 65282 AND\n2 1 65313 3378 65281 AND\n2 1 65312 3377 65280 AND\n2 1 65284 3445 99051 XOR\n2 1 65283 3444 99050 XOR\n2 1 65282 3443 99049 XOR\n2 1 65281 3442 99048 XOR\n2 1 65280 3441 99047 XOR\n2 1 3381 3413 65252 XOR\n2 1 3380 3412 65251 XOR\n2 1 3379 3411 65250 XOR\n2 1 3378 3410 65249 XOR\n2 1 3377 3409 65248 XOR\n2 1 90950 107262 14858 XOR\n2 1 14857 14858 14856 AND\n2 1 14856 107262 107263 XOR\n2 1 90951 107263 14861 XOR\n2 1 2998 107263 14860 XOR\n2 1 14860 14861 14859 AND\n2 1 14859 107263 107264 XOR\n2 1 107295 107264 3383 XOR\n2 1 90952 107264 14864 XOR\n2 1 2999 107264 14863 XOR\n2 1 14863 14864 14862 AND\n2 1 14862 107264 107265 XOR\n2 1 107296 107265 3384 XOR\n2 1 3000 107265 14866 XOR\n2 1 90953 107265 14867 XOR\n2 1 14866 14867 14865 AND\n2 1 14865 107265 107266 XOR\n2 1 107297 107266 3385 XOR\n2 1 3001 107266 14869 XOR\n2 1 90954 107266 14870 XOR\n2 1 14869 14870 14868 AND\n2 1 14868 107266 107267 XOR\n2 1 3002 107267 14872 XOR\n2 1 90955 107267 14873 XOR\n2 1 107298 107267 3386 XOR\n2 1 14872 14873 14871 AND\n2 1 14871 107267 107268 XOR\n2 1 107299 107268 3387 XOR\n2 1 3003 107268 14875 XOR\n2 1 90956 107268 14876 XOR\n2 1 14875 14876 14874 AND\n2 1 14874 107268 107269 XOR\n2 1 3004 107269 14878 XOR\n2 1 90957 107269 14879 XOR\n2 1 14878 14879 14877 AND\n",
"2 1 14877 107269 107270 XOR\n2 1 3005 107270 14881 XOR\n2 1 90958 107270 14882 XOR\n2 1 14881 14882 14880 AND\n2 1 14880 107270 107271 XOR\n2 1 107302 107271 3390 XOR\n2 1 3006 107271 14884 XOR\n2 1 90959 107271 14885 XOR\n2 1 14884 14885 14883 AND\n2 1 14883 107271 107272 XOR\n2 1 107303 107272 3391 XOR\n2 1 107301 107270 3389 XOR\n2 1 107300 107269 3388 XOR\n2 1 65326 3391 65294 AND\n2 1 65325 3390 65293 AND\n2 1 65324 3389 65292 AND\n2 1 65323 3388 65291 AND\n2 1 65322 3387 65290 AND\n2 1 65321 3386 65289 AND\n2 1 65320 3385 65288 AND\n2 1 65319 3384 65287 AND\n2 1 65318 3383 65286 AND\n2 1 65294 3455 99061 XOR\n2 1 65293 3454 99060 XOR\n2 1 65292 3453 99059 XOR\n2 1 65291 3452 99058 XOR\n2 1 65290 3451 99057 XOR\n2 1 65289 3450 99056 XOR\n2 1 65288 3449 99055 XOR\n2 1 65287 3448 99054 XOR\n2 1 65286 3447 99053 XOR\n2 1 3391 3423 65262 XOR\n2 1 3390 3422 65261 XOR\n2 1 3389 3421 65260 XOR\n2 1 3388 3420 65259 XOR\n2 1 3387 3419 65258 XOR\n2 1 3386 3418 65257 XOR\n2 1 3385 3417 65256 XOR\n2 1 3384 3416 65255 XOR\n2 1 3383 3415 65254 XOR\n2 1 107294 107263 3382 XOR\n2 1 65317 3382 65285 AND\n2 1 65285 3446 99052 XOR\n2 1 3382 3414 65253 XOR\n2 1 90951 84807 107356 XOR\n2 1 90948 84804 107353 XOR\n2 1 90941 107315 14920 XOR\n2 1 14920 14921 14919 AND\n2 1 14919 107315 107316 XOR\n2 1 90942 107316 14923 XOR\n2 1 84798 107316 14924 XOR\n2 1 14923 14924 14922 AND\n2 1 14922 107316 107317 XOR\n2 1 107348 107317 2862 XOR\n2 1 84799 107317 14927 XOR\n2 1 90943 107317 14926 XOR\n2 1 14926 14927 14925 AND\n2 1 14925 107317 107318 XOR\n2 1 107349 107318 2863 XOR\n2 1 90944 107318 14929 XOR\n2 1 84800 107318 14930 XOR\n2 1 14929 14930 14928 AND\n2 1 14928 107318 107319 XOR\n2 1 90945 107319 14932 XOR\n2 1 107350 107319 2864 XOR\n2 1 84801 107319 14933 XOR\n2 1 14932 14933 14931 AND\n2 1 14931 107319 107320 XOR\n2 1 107351 107320 2865 XOR\n2 1 90946 107320 14935 XOR\n2 1 84802 107320 14936 XOR\n2 1 14935 14936 14934 AND\n2 1 14934 107320 107321 XOR\n2 1 2865 2929 72480 XOR\n2 1 2864 2928 72479 XOR\n2 1 2863 2927 72478 XOR\n2 1 2862 2926 72477 XOR\n2 1 72480 72448 72416 AND\n2 1 72479 72447 72415 AND\n2 1 72478 72446 72414 AND\n2 1 72477 72445 72413 AND\n2 1 72416 2929 86818 XOR\n2 1 72415 2928 86817 XOR\n2 1 72414 2927 86816 XOR\n2 1 72413 2926 86815 XOR\n2 1 2865 2897 72352 XOR\n2 1 2864 2896 72351 XOR\n2 1 2863 2895 72350 XOR\n2 1 2862 2894 72349 XOR\n2 1 84803 107321 14939 XOR\n2 1 2854 2865 67955 XOR\n2 1 2853 2864 67954 XOR\n2 1 2852 2863 67953 XOR\n2 1 2851 2862 67952 XOR\n2 1 107352 107321 2866 XOR\n2 1 2866 2930 72481 XOR\n2 1 72481 72449 72417 AND\n2 1 72417 2930 86819 XOR\n2 1 2866 2898 72353 XOR\n2 1 2855 2866 67956 XOR\n2 1 90947 107321 14938 XOR\n2 1 14938 14939 14937 AND\n2 1 14937 107321 107322 XOR\n2 1 84804 107322 14942 XOR\n2 1 90948 107322 14941 XOR\n2 1 14941 14942 14940 AND\n2 1 14940 107322 107323 XOR\n2 1 107354 107323 2868 XOR\n2 1 84805 107323 14945 XOR\n2 1 90949 107323 14944 XOR\n2 1 14944 14945 14943 AND\n2 1 14943 107323 107324 XOR\n2 1 107355 107324 2869 XOR\n2 1 84806 107324 14948 XOR\n2 1 90950 107324 14947 XOR\n2 1 14947 14948 14946 AND\n2 1 14946 107324 107325 XOR\n2 1 107356 107325 2870 XOR\n2 1 90951 107325 14950 XOR\n2 1 84807 107325 14951 XOR\n2 1 14950 14951 14949 AND\n2 1 14949 107325 107326 XOR\n2 1 84808 107326 14954 XOR\n2 1 107357 107326 2871 XOR\n2 1 90952 107326 14953 XOR\n2 1 14953 14954 14952 AND\n2 1 14952 107326 107327 XOR\n2 1 107358 107327 2872 XOR\n",
"2 1 90953 107327 14956 XOR\n2 1 2872 2936 72487 XOR\n2 1 2871 2935 72486 XOR\n2 1 2870 2934 72485 XOR\n2 1 2869 2933 72484 XOR\n2 1 2868 2932 72483 XOR\n2 1 72487 72455 72423 AND\n2 1 72486 72454 72422 AND\n2 1 72485 72453 72421 AND\n2 1 72484 72452 72420 AND\n2 1 72483 72451 72419 AND\n2 1 72423 2936 86825 XOR\n2 1 72422 2935 86824 XOR\n2 1 72421 2934 86823 XOR\n2 1 72420 2933 86822 XOR\n2 1 72419 2932 86821 XOR\n2 1 2872 2904 72359 XOR\n2 1 2871 2903 72358 XOR\n2 1 2870 2902 72357 XOR\n2 1 2869 2901 72356 XOR\n2 1 2868 2900 72355 XOR\n2 1 2872 2851 67973 XOR\n2 1 2871 2850 67972 XOR\n2 1 2870 2849 67971 XOR\n2 1 2869 2848 67970 XOR\n2 1 2860 2871 67961 XOR\n2 1 2859 2870 67960 XOR\n2 1 2858 2869 67959 XOR\n2 1 2857 2868 67958 XOR\n2 1 67982 2869 88880 XOR\n2 1 67981 2868 88879 XOR\n2 1 67973 2860 88871 XOR\n2 1 88871 86823 119915 XOR\n2 1 67972 2859 88870 XOR\n2 1 88870 86822 119914 XOR\n2 1 67971 2858 88869 XOR\n2 1 88869 86821 119913 XOR\n2 1 67970 2857 88868 XOR\n2 1 67961 2848 88859 XOR\n2 1 88859 86811 119903 XOR\n2 1 67953 2872 88851 XOR\n2 1 88851 86803 119895 XOR\n2 1 67952 2871 88850 XOR\n2 1 88850 86802 119894 XOR\n2 1 84809 107327 14957 XOR\n2 1 14956 14957 14955 AND\n2 1 14955 107327 107328 XOR\n2 1 107359 107328 2873 XOR\n2 1 2873 2937 72488 XOR\n2 1 72488 72456 72424 AND\n2 1 72424 2937 86826 XOR\n2 1 2873 2905 72360 XOR\n2 1 2873 2852 67974 XOR\n2 1 2862 2873 67963 XOR\n2 1 67963 2850 88861 XOR\n2 1 88861 86813 119905 XOR\n2 1 67954 2873 88852 XOR\n2 1 88852 86804 119896 XOR\n2 1 90954 107328 14959 XOR\n2 1 84810 107328 14960 XOR\n2 1 14959 14960 14958 AND\n2 1 14958 107328 107329 XOR\n2 1 84811 107329 14963 XOR\n2 1 107360 107329 2874 XOR\n2 1 2874 2938 72489 XOR\n2 1 72489 72457 72425 AND\n2 1 72425 2938 86827 XOR\n2 1 2874 2906 72361 XOR\n2 1 90955 107329 14962 XOR\n2 1 14962 14963 14961 AND\n2 1 14961 107329 107330 XOR\n2 1 107361 107330 2875 XOR\n2 1 84812 107330 14966 XOR\n2 1 90956 107330 14965 XOR\n2 1 14965 14966 14964 AND\n2 1 14964 107330 107331 XOR\n2 1 107362 107331 2876 XOR\n2 1 84813 107331 14969 XOR\n2 1 90957 107331 14968 XOR\n2 1 14968 14969 14967 AND\n2 1 14967 107331 107332 XOR\n2 1 107363 107332 2877 XOR\n2 1 90958 107332 14971 XOR\n2 1 84814 107332 14972 XOR\n2 1 14971 14972 14970 AND\n2 1 14970 107332 107333 XOR\n2 1 84815 107333 14975 XOR\n2 1 107364 107333 2878 XOR\n2 1 90959 107333 14974 XOR\n2 1 14974 14975 14973 AND\n2 1 14973 107333 107334 XOR\n2 1 107365 107334 2879 XOR\n2 1 2879 2943 72494 XOR\n2 1 2878 2942 72493 XOR\n2 1 2877 2941 72492 XOR\n2 1 2876 2940 72491 XOR\n2 1 2875 2939 72490 XOR\n2 1 72494 72462 72430 AND\n2 1 72493 72461 72429 AND\n2 1 72492 72460 72428 AND\n2 1 72491 72459 72427 AND\n2 1 72490 72458 72426 AND\n2 1 72430 2943 86832 XOR\n2 1 88880 86832 119924 XOR\n2 1 72429 2942 86831 XOR\n2 1 88879 86831 119923 XOR\n2 1 72428 2941 86830 XOR\n2 1 72427 2940 86829 XOR\n2 1 72426 2939 86828 XOR\n2 1 2879 2911 72366 XOR\n2 1 2878 2910 72365 XOR\n2 1 2877 2909 72364 XOR\n2 1 2876 2908 72363 XOR\n2 1 2875 2907 72362 XOR\n2 1 2879 2858 67980 XOR\n2 1 2878 2857 67979 XOR\n2 1 2877 2856 67978 XOR\n2 1 2876 2855 67977 XOR\n2 1 2875 2854 67976 XOR\n2 1 2874 2853 67975 XOR\n2 1 2868 2879 67969 XOR\n2 1 2866 2877 67967 XOR\n2 1 2865 2876 67966 XOR\n2 1 2864 2875 67965 XOR\n2 1 2863 2874 67964 XOR\n2 1 67979 2866 88877 XOR\n2 1 88877 86829 119921 XOR\n2 1 67978 2865 88876 XOR\n",
"2 1 88876 86828 119920 XOR\n2 1 67977 2864 88875 XOR\n2 1 88875 86827 119919 XOR\n2 1 67976 2863 88874 XOR\n2 1 88874 86826 119918 XOR\n2 1 67975 2862 88873 XOR\n2 1 88873 86825 119917 XOR\n2 1 67969 2856 88867 XOR\n2 1 88867 86819 119911 XOR\n2 1 67967 2854 88865 XOR\n2 1 88865 86817 119909 XOR\n2 1 67966 2853 88864 XOR\n2 1 88864 86816 119908 XOR\n2 1 67965 2852 88863 XOR\n2 1 88863 86815 119907 XOR\n2 1 67964 2851 88862 XOR\n2 1 67960 2879 88858 XOR\n2 1 88858 86810 119902 XOR\n2 1 67959 2878 88857 XOR\n2 1 88857 86809 119901 XOR\n2 1 67958 2877 88856 XOR\n2 1 88856 86808 119900 XOR\n2 1 67956 2875 88854 XOR\n2 1 88854 86806 119898 XOR\n2 1 67955 2874 88853 XOR\n2 1 88853 86805 119897 XOR\n2 1 107347 107316 2861 XOR\n2 1 2861 2925 72476 XOR\n2 1 72476 72444 72412 AND\n2 1 72412 2925 86814 XOR\n2 1 88862 86814 119906 XOR\n2 1 2861 2893 72348 XOR\n2 1 2861 2872 67962 XOR\n2 1 2850 2861 67951 XOR\n2 1 67974 2861 88872 XOR\n2 1 88872 86824 119916 XOR\n2 1 67962 2849 88860 XOR\n2 1 88860 86812 119904 XOR\n2 1 67951 2870 88849 XOR\n2 1 88849 86801 119863 AND\n2 1 88849 86801 84753 XOR\n2 1 119894 119863 84754 XOR\n2 1 88850 119863 36347 XOR\n2 1 86802 119863 36348 XOR\n2 1 36347 36348 36346 AND\n2 1 36346 119863 119864 XOR\n2 1 119895 119864 84755 XOR\n2 1 88851 119864 36350 XOR\n2 1 86803 119864 36351 XOR\n2 1 36350 36351 36349 AND\n2 1 36349 119864 119865 XOR\n2 1 119896 119865 84756 XOR\n2 1 88852 119865 36353 XOR\n2 1 86804 119865 36354 XOR\n2 1 36353 36354 36352 AND\n2 1 36352 119865 119866 XOR\n2 1 119897 119866 84757 XOR\n2 1 88853 119866 36356 XOR\n2 1 86805 119866 36357 XOR\n2 1 36356 36357 36355 AND\n2 1 36355 119866 119867 XOR\n2 1 119898 119867 84758 XOR\n2 1 88854 119867 36359 XOR\n2 1 86806 119867 36360 XOR\n2 1 36359 36360 36358 AND\n2 1 36358 119867 119868 XOR\n2 1 86807 119868 36363 XOR\n2 1 107353 107322 2867 XOR\n2 1 2867 2931 72482 XOR\n2 1 72482 72450 72418 AND\n2 1 72418 2931 86820 XOR\n2 1 88868 86820 119912 XOR\n2 1 2867 2899 72354 XOR\n2 1 2867 2878 67968 XOR\n2 1 2856 2867 67957 XOR\n2 1 67980 2867 88878 XOR\n2 1 88878 86830 119922 XOR\n2 1 67968 2855 88866 XOR\n2 1 88866 86818 119910 XOR\n2 1 67957 2876 88855 XOR\n2 1 88855 86807 119899 XOR\n2 1 119899 119868 84759 XOR\n2 1 88855 119868 36362 XOR\n2 1 36362 36363 36361 AND\n2 1 36361 119868 119869 XOR\n2 1 119900 119869 84760 XOR\n2 1 88856 119869 36365 XOR\n2 1 86808 119869 36366 XOR\n2 1 36365 36366 36364 AND\n2 1 36364 119869 119870 XOR\n2 1 119901 119870 84761 XOR\n2 1 88857 119870 36368 XOR\n2 1 86809 119870 36369 XOR\n2 1 36368 36369 36367 AND\n2 1 36367 119870 119871 XOR\n2 1 119902 119871 84762 XOR\n2 1 88858 119871 36371 XOR\n2 1 86810 119871 36372 XOR\n2 1 36371 36372 36370 AND\n2 1 36370 119871 119872 XOR\n2 1 119903 119872 84763 XOR\n2 1 88859 119872 36374 XOR\n2 1 86811 119872 36375 XOR\n2 1 36374 36375 36373 AND\n2 1 36373 119872 119873 XOR\n2 1 119904 119873 84764 XOR\n2 1 88860 119873 36377 XOR\n2 1 86812 119873 36378 XOR\n2 1 36377 36378 36376 AND\n2 1 36376 119873 119874 XOR\n2 1 119905 119874 84765 XOR\n2 1 88861 119874 36380 XOR\n2 1 86813 119874 36381 XOR\n2 1 36380 36381 36379 AND\n2 1 36379 119874 119875 XOR\n2 1 119906 119875 84766 XOR\n2 1 88862 119875 36383 XOR\n2 1 86814 119875 36384 XOR\n2 1 36383 36384 36382 AND\n2 1 36382 119875 119876 XOR\n2 1 119907 119876 84767 XOR\n2 1 88863 119876 36386 XOR\n2 1 86815 119876 36387 XOR\n2 1 36386 36387 36385 AND\n2 1 36385 119876 119877 XOR\n2 1 119908 119877 84768 XOR\n2 1 88864 119877 36389 XOR\n2 1 86816 119877 36390 XOR\n",
"2 1 36389 36390 36388 AND\n2 1 36388 119877 119878 XOR\n2 1 119909 119878 84769 XOR\n2 1 88865 119878 36392 XOR\n2 1 86817 119878 36393 XOR\n2 1 36392 36393 36391 AND\n2 1 36391 119878 119879 XOR\n2 1 119910 119879 84770 XOR\n2 1 88866 119879 36395 XOR\n2 1 86818 119879 36396 XOR\n2 1 36395 36396 36394 AND\n2 1 36394 119879 119880 XOR\n2 1 119911 119880 84771 XOR\n2 1 88867 119880 36398 XOR\n2 1 86819 119880 36399 XOR\n2 1 36398 36399 36397 AND\n2 1 36397 119880 119881 XOR\n2 1 119912 119881 84772 XOR\n2 1 88868 119881 36401 XOR\n2 1 86820 119881 36402 XOR\n2 1 36401 36402 36400 AND\n2 1 36400 119881 119882 XOR\n2 1 119913 119882 84773 XOR\n2 1 88869 119882 36404 XOR\n2 1 86821 119882 36405 XOR\n2 1 36404 36405 36403 AND\n2 1 36403 119882 119883 XOR\n2 1 119914 119883 84774 XOR\n2 1 88870 119883 36407 XOR\n2 1 86822 119883 36408 XOR\n2 1 36407 36408 36406 AND\n2 1 36406 119883 119884 XOR\n2 1 119915 119884 84775 XOR\n2 1 88871 119884 36410 XOR\n2 1 86823 119884 36411 XOR\n2 1 36410 36411 36409 AND\n2 1 36409 119884 119885 XOR\n2 1 119916 119885 84776 XOR\n2 1 88872 119885 36413 XOR\n2 1 86824 119885 36414 XOR\n2 1 36413 36414 36412 AND\n2 1 36412 119885 119886 XOR\n2 1 119917 119886 84777 XOR\n2 1 88873 119886 36416 XOR\n2 1 86825 119886 36417 XOR\n2 1 36416 36417 36415 AND\n2 1 36415 119886 119887 XOR\n2 1 119918 119887 84778 XOR\n2 1 88874 119887 36419 XOR\n2 1 86826 119887 36420 XOR\n2 1 36419 36420 36418 AND\n2 1 36418 119887 119888 XOR\n2 1 119919 119888 84779 XOR\n2 1 88875 119888 36422 XOR\n2 1 86827 119888 36423 XOR\n2 1 36422 36423 36421 AND\n2 1 36421 119888 119889 XOR\n2 1 119920 119889 84780 XOR\n2 1 88876 119889 36425 XOR\n2 1 86828 119889 36426 XOR\n2 1 36425 36426 36424 AND\n2 1 36424 119889 119890 XOR\n2 1 119921 119890 84781 XOR\n2 1 88877 119890 36428 XOR\n2 1 86829 119890 36429 XOR\n2 1 36428 36429 36427 AND\n2 1 36427 119890 119891 XOR\n2 1 119922 119891 84782 XOR\n2 1 88878 119891 36431 XOR\n2 1 86830 119891 36432 XOR\n2 1 36431 36432 36430 AND\n2 1 36430 119891 119892 XOR\n2 1 119923 119892 84783 XOR\n2 1 88879 119892 36434 XOR\n2 1 86831 119892 36435 XOR\n2 1 36434 36435 36433 AND\n2 1 36433 119892 119893 XOR\n2 1 119924 119893 84784 XOR\n2 1 3365 3370 62062 XOR\n2 1 3364 3369 62061 XOR\n2 1 3363 3368 62060 XOR\n2 1 3362 3367 62059 XOR\n2 1 3361 3366 62058 XOR\n2 1 3360 3365 62057 XOR\n2 1 3391 3364 62056 XOR\n2 1 3390 3363 62055 XOR\n2 1 3389 3362 62054 XOR\n2 1 3388 3361 62053 XOR\n2 1 3387 3360 62052 XOR\n2 1 3386 3391 62051 XOR\n2 1 3385 3390 62050 XOR\n2 1 3384 3389 62049 XOR\n2 1 3383 3388 62048 XOR\n2 1 3382 3387 62047 XOR\n2 1 3381 3386 62046 XOR\n2 1 3380 3385 62045 XOR\n2 1 3379 3384 62044 XOR\n2 1 3378 3383 62043 XOR\n2 1 3377 3382 62042 XOR\n2 1 3376 3381 62041 XOR\n2 1 3375 3380 62040 XOR\n2 1 3374 3379 62039 XOR\n2 1 3373 3378 62038 XOR\n2 1 3372 3377 62037 XOR\n2 1 3371 3376 62036 XOR\n2 1 3370 3375 62035 XOR\n2 1 3369 3374 62034 XOR\n2 1 3368 3373 62033 XOR\n2 1 3367 3372 62032 XOR\n2 1 3366 3371 62031 XOR\n2 1 62062 3384 101109 XOR\n2 1 101109 99061 120124 XOR\n2 1 62061 3383 101108 XOR\n2 1 101108 99060 120123 XOR\n2 1 62060 3382 101107 XOR\n2 1 101107 99059 120122 XOR\n2 1 62059 3381 101106 XOR\n2 1 101106 99058 120121 XOR\n2 1 62058 3380 101105 XOR\n2 1 101105 99057 120120 XOR\n2 1 62057 3379 101104 XOR\n2 1 101104 99056 120119 XOR\n2 1 62056 3378 101103 XOR\n2 1 101103 99055 120118 XOR\n2 1 62055 3377 101102 XOR\n2 1 101102 99054 120117 XOR\n2 1 62054 3376 101101 XOR\n2 1 101101 99053 120116 XOR\n",
"2 1 62053 3375 101100 XOR\n2 1 101100 99052 120115 XOR\n2 1 62052 3374 101099 XOR\n2 1 101099 99051 120114 XOR\n2 1 62051 3373 101098 XOR\n2 1 101098 99050 120113 XOR\n2 1 62050 3372 101097 XOR\n2 1 101097 99049 120112 XOR\n2 1 62049 3371 101096 XOR\n2 1 101096 99048 120111 XOR\n2 1 62048 3370 101095 XOR\n2 1 101095 99047 120110 XOR\n2 1 62047 3369 101094 XOR\n2 1 101094 99046 120109 XOR\n2 1 62046 3368 101093 XOR\n2 1 101093 99045 120108 XOR\n2 1 62045 3367 101092 XOR\n2 1 101092 99044 120107 XOR\n2 1 62044 3366 101091 XOR\n2 1 101091 99043 120106 XOR\n2 1 62043 3365 101090 XOR\n2 1 101090 99042 120105 XOR\n2 1 62042 3364 101089 XOR\n2 1 101089 99041 120104 XOR\n2 1 62041 3363 101088 XOR\n2 1 101088 99040 120103 XOR\n2 1 62040 3362 101087 XOR\n2 1 101087 99039 120102 XOR\n2 1 62039 3361 101086 XOR\n2 1 101086 99038 120101 XOR\n2 1 62038 3360 101085 XOR\n2 1 101085 99037 120100 XOR\n2 1 62037 3391 101084 XOR\n2 1 101084 99036 120099 XOR\n2 1 62036 3390 101083 XOR\n2 1 101083 99035 120098 XOR\n2 1 62035 3389 101082 XOR\n2 1 101082 99034 120097 XOR\n2 1 62034 3388 101081 XOR\n2 1 101081 99033 120096 XOR\n2 1 62033 3387 101080 XOR\n2 1 101080 99032 120095 XOR\n2 1 62032 3386 101079 XOR\n2 1 101079 99031 120094 XOR\n2 1 62031 3385 101078 XOR\n2 1 101078 99030 120063 AND\n2 1 101078 99030 96982 XOR\n2 1 120094 120063 96983 XOR\n2 1 101079 120063 36703 XOR\n2 1 99031 120063 36704 XOR\n2 1 36703 36704 36702 AND\n2 1 36702 120063 120064 XOR\n2 1 120095 120064 96984 XOR\n2 1 101080 120064 36706 XOR\n2 1 99032 120064 36707 XOR\n2 1 36706 36707 36705 AND\n2 1 36705 120064 120065 XOR\n2 1 120096 120065 96985 XOR\n2 1 101081 120065 36709 XOR\n2 1 99033 120065 36710 XOR\n2 1 36709 36710 36708 AND\n2 1 36708 120065 120066 XOR\n2 1 120097 120066 96986 XOR\n2 1 101082 120066 36712 XOR\n2 1 99034 120066 36713 XOR\n2 1 36712 36713 36711 AND\n2 1 36711 120066 120067 XOR\n2 1 120098 120067 96987 XOR\n2 1 101083 120067 36715 XOR\n2 1 99035 120067 36716 XOR\n2 1 36715 36716 36714 AND\n2 1 36714 120067 120068 XOR\n2 1 120099 120068 96988 XOR\n2 1 101084 120068 36718 XOR\n2 1 99036 120068 36719 XOR\n2 1 36718 36719 36717 AND\n2 1 36717 120068 120069 XOR\n2 1 120100 120069 96989 XOR\n2 1 101085 120069 36721 XOR\n2 1 99037 120069 36722 XOR\n2 1 36721 36722 36720 AND\n2 1 36720 120069 120070 XOR\n2 1 120101 120070 96990 XOR\n2 1 101086 120070 36724 XOR\n2 1 99038 120070 36725 XOR\n2 1 36724 36725 36723 AND\n2 1 36723 120070 120071 XOR\n2 1 120102 120071 96991 XOR\n2 1 101087 120071 36727 XOR\n2 1 99039 120071 36728 XOR\n2 1 36727 36728 36726 AND\n2 1 36726 120071 120072 XOR\n2 1 120103 120072 96992 XOR\n2 1 101088 120072 36730 XOR\n2 1 99040 120072 36731 XOR\n2 1 36730 36731 36729 AND\n2 1 36729 120072 120073 XOR\n2 1 120104 120073 96993 XOR\n2 1 101089 120073 36733 XOR\n2 1 99041 120073 36734 XOR\n2 1 36733 36734 36732 AND\n2 1 36732 120073 120074 XOR\n2 1 120105 120074 96994 XOR\n2 1 101090 120074 36736 XOR\n2 1 99042 120074 36737 XOR\n2 1 36736 36737 36735 AND\n2 1 36735 120074 120075 XOR\n2 1 120106 120075 96995 XOR\n2 1 101091 120075 36739 XOR\n2 1 99043 120075 36740 XOR\n2 1 36739 36740 36738 AND\n2 1 36738 120075 120076 XOR\n2 1 120107 120076 96996 XOR\n2 1 101092 120076 36742 XOR\n2 1 99044 120076 36743 XOR\n2 1 36742 36743 36741 AND\n2 1 36741 120076 120077 XOR\n2 1 120108 120077 96997 XOR\n2 1 101093 120077 36745 XOR\n2 1 99045 120077 36746 XOR\n2 1 36745 36746 36744 AND\n2 1 36744 120077 120078 XOR\n2 1 120109 120078 96998 XOR\n2 1 101094 120078 36748 XOR\n2 1 99046 120078 36749 XOR\n2 1 36748 36749 36747 AND\n2 1 36747 120078 120079 XOR\n2 1 120110 120079 96999 XOR\n",
"2 1 101095 120079 36751 XOR\n2 1 99047 120079 36752 XOR\n2 1 36751 36752 36750 AND\n2 1 36750 120079 120080 XOR\n2 1 120111 120080 97000 XOR\n2 1 101096 120080 36754 XOR\n2 1 99048 120080 36755 XOR\n2 1 36754 36755 36753 AND\n2 1 36753 120080 120081 XOR\n2 1 120112 120081 97001 XOR\n2 1 101097 120081 36757 XOR\n2 1 99049 120081 36758 XOR\n2 1 36757 36758 36756 AND\n2 1 36756 120081 120082 XOR\n2 1 120113 120082 97002 XOR\n2 1 101098 120082 36760 XOR\n2 1 99050 120082 36761 XOR\n2 1 36760 36761 36759 AND\n2 1 36759 120082 120083 XOR\n2 1 120114 120083 97003 XOR\n2 1 101099 120083 36763 XOR\n2 1 99051 120083 36764 XOR\n2 1 36763 36764 36762 AND\n2 1 36762 120083 120084 XOR\n2 1 120115 120084 97004 XOR\n2 1 101100 120084 36766 XOR\n2 1 99052 120084 36767 XOR\n2 1 36766 36767 36765 AND\n2 1 36765 120084 120085 XOR\n2 1 120116 120085 97005 XOR\n2 1 101101 120085 36769 XOR\n2 1 99053 120085 36770 XOR\n2 1 36769 36770 36768 AND\n2 1 36768 120085 120086 XOR\n2 1 120117 120086 97006 XOR\n2 1 101102 120086 36772 XOR\n2 1 99054 120086 36773 XOR\n2 1 36772 36773 36771 AND\n2 1 36771 120086 120087 XOR\n2 1 120118 120087 97007 XOR\n2 1 101103 120087 36775 XOR\n2 1 99055 120087 36776 XOR\n2 1 36775 36776 36774 AND\n2 1 36774 120087 120088 XOR\n2 1 120119 120088 97008 XOR\n2 1 101104 120088 36778 XOR\n2 1 99056 120088 36779 XOR\n2 1 36778 36779 36777 AND\n2 1 36777 120088 120089 XOR\n2 1 120120 120089 97009 XOR\n2 1 101105 120089 36781 XOR\n2 1 99057 120089 36782 XOR\n2 1 36781 36782 36780 AND\n2 1 36780 120089 120090 XOR\n2 1 120121 120090 97010 XOR\n2 1 101106 120090 36784 XOR\n2 1 99058 120090 36785 XOR\n2 1 36784 36785 36783 AND\n2 1 36783 120090 120091 XOR\n2 1 120122 120091 97011 XOR\n2 1 101107 120091 36787 XOR\n2 1 99059 120091 36788 XOR\n2 1 36787 36788 36786 AND\n2 1 36786 120091 120092 XOR\n2 1 120123 120092 97012 XOR\n2 1 101108 120092 36790 XOR\n2 1 99060 120092 36791 XOR\n2 1 36790 36791 36789 AND\n2 1 36789 120092 120093 XOR\n2 1 120124 120093 97013 XOR\n2 1 76897 76899 81712 XOR\n2 1 81712 77072 133662 XOR\n2 1 76896 76898 81711 XOR\n2 1 81711 77071 133661 XOR\n2 1 76895 76897 81710 XOR\n2 1 81710 77070 133660 XOR\n2 1 76894 76896 81709 XOR\n2 1 81709 77069 133659 XOR\n2 1 76893 76895 81708 XOR\n2 1 81708 77068 133658 XOR\n2 1 76892 76894 81707 XOR\n2 1 81707 77067 133657 XOR\n2 1 76891 76893 81706 XOR\n2 1 81706 77066 133656 XOR\n2 1 76890 76892 81705 XOR\n2 1 81705 77065 133655 XOR\n2 1 76889 76891 81704 XOR\n2 1 81704 77064 133654 XOR\n2 1 76888 76890 81703 XOR\n2 1 81703 77063 133653 XOR\n2 1 76887 76889 6969 XOR\n2 1 76886 76888 6968 XOR\n2 1 76885 76887 6967 XOR\n2 1 76884 76886 6966 XOR\n2 1 76883 76885 6965 XOR\n2 1 76882 76884 6964 XOR\n2 1 76881 76883 6963 XOR\n2 1 76912 76882 6962 XOR\n2 1 76911 76881 6961 XOR\n2 1 76910 76912 6960 XOR\n2 1 76909 76911 6959 XOR\n2 1 76908 76910 6958 XOR\n2 1 76907 76909 6957 XOR\n2 1 76906 76908 6956 XOR\n2 1 76905 76907 6955 XOR\n2 1 76904 76906 6954 XOR\n2 1 76903 76905 6953 XOR\n2 1 76902 76904 6952 XOR\n2 1 76901 76903 6951 XOR\n2 1 76900 76902 6950 XOR\n2 1 76899 76901 6949 XOR\n2 1 76898 76900 6948 XOR\n2 1 6969 76912 81702 XOR\n2 1 81702 77062 133652 XOR\n2 1 6968 76911 81701 XOR\n2 1 81701 77061 133651 XOR\n2 1 6967 76910 81700 XOR\n2 1 81700 77060 133650 XOR\n2 1 6966 76909 81699 XOR\n2 1 81699 77059 133649 XOR\n2 1 6965 76908 81698 XOR\n2 1 81698 77058 133648 XOR\n2 1 6964 76907 81697 XOR\n2 1 81697 77057 133647 XOR\n2 1 6963 76906 81696 XOR\n2 1 81696 77056 133646 XOR\n2 1 6962 76905 81695 XOR\n2 1 81695 77055 133645 XOR\n",
"2 1 6961 76904 81694 XOR\n2 1 81694 77054 133644 XOR\n2 1 6960 76903 81693 XOR\n2 1 81693 77053 133643 XOR\n2 1 6959 76902 81692 XOR\n2 1 81692 77052 133642 XOR\n2 1 6958 76901 81691 XOR\n2 1 81691 77051 133641 XOR\n2 1 6957 76900 81690 XOR\n2 1 81690 77050 133640 XOR\n2 1 6956 76899 81689 XOR\n2 1 81689 77049 133639 XOR\n2 1 6955 76898 81688 XOR\n2 1 81688 77048 133638 XOR\n2 1 6954 76897 81687 XOR\n2 1 81687 77047 133637 XOR\n2 1 6953 76896 81686 XOR\n2 1 81686 77046 133636 XOR\n2 1 6952 76895 81685 XOR\n2 1 81685 77045 133635 XOR\n2 1 6951 76894 81684 XOR\n2 1 81684 77044 133634 XOR\n2 1 6950 76893 81683 XOR\n2 1 81683 77043 133633 XOR\n2 1 6949 76892 81682 XOR\n2 1 81682 77042 133632 XOR\n2 1 6948 76891 81681 XOR\n2 1 81681 77041 133601 AND\n2 1 81681 77041 80145 XOR\n2 1 80145 78609 133477 AND\n2 1 80145 78609 76817 XOR\n2 1 76817 3456 120001 AND\n2 1 76817 3456 94934 XOR\n2 1 96982 94934 119939 AND\n2 1 96982 94934 92906 XOR\n1 1 92906 90897 INV\n2 1 96983 119939 36523 XOR\n2 1 3457 120001 36614 XOR\n2 1 2944 90897 107118 AND\n2 1 2945 107118 14617 XOR\n2 1 78610 133477 58207 XOR\n2 1 133632 133601 80146 XOR\n2 1 80146 78610 133508 XOR\n2 1 133508 133477 76818 XOR\n2 1 76818 3457 120032 XOR\n2 1 120032 120001 94935 XOR\n2 1 96983 94935 119970 XOR\n2 1 119970 119939 92907 XOR\n2 1 92907 92906 90898 XOR\n2 1 90898 92906 36436 AND\n2 1 36436 92906 119925 XOR\n1 1 119925 36439 INV\n2 1 94935 119939 36524 XOR\n2 1 36523 36524 36522 AND\n2 1 36522 119939 119940 XOR\n2 1 96984 119940 36526 XOR\n2 1 76818 120001 36613 XOR\n2 1 36613 36614 36612 AND\n2 1 36612 120001 120002 XOR\n2 1 3458 120002 36617 XOR\n2 1 2945 90898 107149 XOR\n2 1 107149 107118 3329 XOR\n2 1 90898 107118 14618 XOR\n2 1 14617 14618 14616 AND\n2 1 14616 107118 107119 XOR\n2 1 2946 107119 14620 XOR\n2 1 80146 133477 58206 XOR\n2 1 58206 58207 58205 AND\n2 1 58205 133477 133478 XOR\n2 1 78611 133478 58210 XOR\n2 1 81682 133601 58386 XOR\n2 1 77042 133601 58387 XOR\n2 1 58386 58387 58385 AND\n2 1 58385 133601 133602 XOR\n2 1 133633 133602 80147 XOR\n2 1 80147 78611 133509 XOR\n2 1 133509 133478 76819 XOR\n2 1 76819 3458 120033 XOR\n2 1 120033 120002 94936 XOR\n2 1 96984 94936 119971 XOR\n2 1 119971 119940 92908 XOR\n1 1 92908 36508 INV\n2 1 36508 119925 90899 XOR\n2 1 92908 119925 36438 XOR\n2 1 36438 36439 36437 AND\n2 1 36437 119925 119926 XOR\n1 1 119926 36442 INV\n2 1 94936 119940 36527 XOR\n2 1 36526 36527 36525 AND\n2 1 36525 119940 119941 XOR\n2 1 96985 119941 36529 XOR\n2 1 76819 120002 36616 XOR\n2 1 36616 36617 36615 AND\n2 1 36615 120002 120003 XOR\n2 1 3459 120003 36620 XOR\n2 1 90899 107119 14621 XOR\n2 1 14620 14621 14619 AND\n2 1 14619 107119 107120 XOR\n2 1 2947 107120 14623 XOR\n2 1 80147 133478 58209 XOR\n2 1 58209 58210 58208 AND\n2 1 58208 133478 133479 XOR\n2 1 78612 133479 58213 XOR\n2 1 81683 133602 58389 XOR\n2 1 77043 133602 58390 XOR\n2 1 58389 58390 58388 AND\n2 1 58388 133602 133603 XOR\n2 1 133634 133603 80148 XOR\n2 1 80148 78612 133510 XOR\n2 1 133510 133479 76820 XOR\n2 1 76820 3459 120034 XOR\n2 1 120034 120003 94937 XOR\n2 1 96985 94937 119972 XOR\n2 1 119972 119941 92909 XOR\n1 1 92909 36509 INV\n2 1 36509 119926 90900 XOR\n2 1 92909 119926 36441 XOR\n2 1 36441 36442 36440 AND\n2 1 36440 119926 36444 XOR\n2 1 94937 119941 36530 XOR\n2 1 36529 36530 36528 AND\n2 1 36528 119941 119942 XOR\n2 1 96986 119942 36532 XOR\n2 1 76820 120003 36619 XOR\n2 1 36619 36620 36618 AND\n2 1 36618 120003 120004 XOR\n2 1 3460 120004 36623 XOR\n2 1 2947 90900 107151 XOR\n",
"2 1 107151 107120 3331 XOR\n2 1 90900 107120 14624 XOR\n2 1 14623 14624 14622 AND\n2 1 14622 107120 107121 XOR\n2 1 2948 107121 14626 XOR\n2 1 80148 133479 58212 XOR\n2 1 58212 58213 58211 AND\n2 1 58211 133479 133480 XOR\n2 1 78613 133480 58216 XOR\n2 1 81684 133603 58392 XOR\n2 1 77044 133603 58393 XOR\n2 1 58392 58393 58391 AND\n2 1 58391 133603 133604 XOR\n2 1 133635 133604 80149 XOR\n2 1 80149 78613 133511 XOR\n2 1 133511 133480 76821 XOR\n2 1 76821 3460 120035 XOR\n2 1 120035 120004 94938 XOR\n2 1 96986 94938 119973 XOR\n2 1 119973 119942 92910 XOR\n2 1 92910 36444 90901 XOR\n2 1 90901 36444 36443 AND\n2 1 36443 36444 119927 XOR\n1 1 119927 36447 INV\n2 1 94938 119942 36533 XOR\n2 1 36532 36533 36531 AND\n2 1 36531 119942 119943 XOR\n2 1 96987 119943 36535 XOR\n2 1 76821 120004 36622 XOR\n2 1 36622 36623 36621 AND\n2 1 36621 120004 120005 XOR\n2 1 3461 120005 36626 XOR\n2 1 2948 90901 107152 XOR\n2 1 107152 107121 3332 XOR\n2 1 90901 107121 14627 XOR\n2 1 14626 14627 14625 AND\n2 1 14625 107121 107122 XOR\n2 1 2949 107122 14629 XOR\n2 1 80149 133480 58215 XOR\n2 1 58215 58216 58214 AND\n2 1 58214 133480 133481 XOR\n2 1 78614 133481 58219 XOR\n2 1 81685 133604 58395 XOR\n2 1 77045 133604 58396 XOR\n2 1 58395 58396 58394 AND\n2 1 58394 133604 133605 XOR\n2 1 133636 133605 80150 XOR\n2 1 80150 78614 133512 XOR\n2 1 133512 133481 76822 XOR\n2 1 76822 3461 120036 XOR\n2 1 120036 120005 94939 XOR\n2 1 96987 94939 119974 XOR\n2 1 119974 119943 92911 XOR\n1 1 92911 36510 INV\n2 1 36510 119927 90902 XOR\n2 1 92911 119927 36446 XOR\n2 1 36446 36447 36445 AND\n2 1 36445 119927 119928 XOR\n1 1 119928 36450 INV\n2 1 94939 119943 36536 XOR\n2 1 36535 36536 36534 AND\n2 1 36534 119943 119944 XOR\n2 1 96988 119944 36538 XOR\n2 1 76822 120005 36625 XOR\n2 1 36625 36626 36624 AND\n2 1 36624 120005 120006 XOR\n2 1 3462 120006 36629 XOR\n2 1 2949 90902 107153 XOR\n2 1 107153 107122 3333 XOR\n2 1 90902 107122 14630 XOR\n2 1 14629 14630 14628 AND\n2 1 14628 107122 107123 XOR\n2 1 2950 107123 14632 XOR\n2 1 80150 133481 58218 XOR\n2 1 58218 58219 58217 AND\n2 1 58217 133481 133482 XOR\n2 1 78615 133482 58222 XOR\n2 1 81686 133605 58398 XOR\n2 1 77046 133605 58399 XOR\n2 1 58398 58399 58397 AND\n2 1 58397 133605 133606 XOR\n2 1 133637 133606 80151 XOR\n2 1 80151 78615 133513 XOR\n2 1 133513 133482 76823 XOR\n2 1 76823 3462 120037 XOR\n2 1 120037 120006 94940 XOR\n2 1 96988 94940 119975 XOR\n2 1 119975 119944 92912 XOR\n1 1 92912 36511 INV\n2 1 36511 119928 90903 XOR\n2 1 92912 119928 36449 XOR\n2 1 36449 36450 36448 AND\n2 1 36448 119928 36452 XOR\n2 1 94940 119944 36539 XOR\n2 1 36538 36539 36537 AND\n2 1 36537 119944 119945 XOR\n2 1 96989 119945 36541 XOR\n2 1 76823 120006 36628 XOR\n2 1 36628 36629 36627 AND\n2 1 36627 120006 120007 XOR\n2 1 3463 120007 36632 XOR\n2 1 2950 90903 107154 XOR\n2 1 107154 107123 3334 XOR\n2 1 90903 107123 14633 XOR\n2 1 14632 14633 14631 AND\n2 1 14631 107123 107124 XOR\n2 1 2951 107124 14635 XOR\n2 1 80151 133482 58221 XOR\n2 1 58221 58222 58220 AND\n2 1 58220 133482 133483 XOR\n2 1 78616 133483 58225 XOR\n2 1 81687 133606 58401 XOR\n2 1 77047 133606 58402 XOR\n2 1 58401 58402 58400 AND\n2 1 58400 133606 133607 XOR\n2 1 133638 133607 80152 XOR\n2 1 80152 78616 133514 XOR\n2 1 133514 133483 76824 XOR\n2 1 76824 3463 120038 XOR\n2 1 120038 120007 94941 XOR\n2 1 96989 94941 119976 XOR\n2 1 119976 119945 92913 XOR\n2 1 92913 36452 90904 XOR\n2 1 90904 36452 36451 AND\n2 1 36451 36452 36454 XOR\n2 1 94941 119945 36542 XOR\n2 1 36541 36542 36540 AND\n2 1 36540 119945 119946 XOR\n",
"2 1 96990 119946 36544 XOR\n2 1 76824 120007 36631 XOR\n2 1 36631 36632 36630 AND\n2 1 36630 120007 120008 XOR\n2 1 3464 120008 36635 XOR\n2 1 2951 90904 107155 XOR\n2 1 107155 107124 3335 XOR\n2 1 90904 107124 14636 XOR\n2 1 14635 14636 14634 AND\n2 1 14634 107124 107125 XOR\n2 1 2952 107125 14638 XOR\n2 1 80152 133483 58224 XOR\n2 1 58224 58225 58223 AND\n2 1 58223 133483 133484 XOR\n2 1 78617 133484 58228 XOR\n2 1 81688 133607 58404 XOR\n2 1 77048 133607 58405 XOR\n2 1 58404 58405 58403 AND\n2 1 58403 133607 133608 XOR\n2 1 133639 133608 80153 XOR\n2 1 80153 78617 133515 XOR\n2 1 133515 133484 76825 XOR\n2 1 76825 3464 120039 XOR\n2 1 120039 120008 94942 XOR\n2 1 96990 94942 119977 XOR\n2 1 119977 119946 92914 XOR\n2 1 92914 36454 90905 XOR\n2 1 90905 36454 36453 AND\n2 1 36453 36454 119929 XOR\n1 1 119929 36457 INV\n2 1 94942 119946 36545 XOR\n2 1 36544 36545 36543 AND\n2 1 36543 119946 119947 XOR\n2 1 96991 119947 36547 XOR\n2 1 76825 120008 36634 XOR\n2 1 36634 36635 36633 AND\n2 1 36633 120008 120009 XOR\n2 1 3465 120009 36638 XOR\n2 1 2952 90905 107156 XOR\n2 1 107156 107125 3336 XOR\n2 1 90905 107125 14639 XOR\n2 1 14638 14639 14637 AND\n2 1 14637 107125 107126 XOR\n2 1 2953 107126 14641 XOR\n2 1 80153 133484 58227 XOR\n2 1 58227 58228 58226 AND\n2 1 58226 133484 133485 XOR\n2 1 78618 133485 58231 XOR\n2 1 81689 133608 58407 XOR\n2 1 77049 133608 58408 XOR\n2 1 58407 58408 58406 AND\n2 1 58406 133608 133609 XOR\n2 1 133640 133609 80154 XOR\n2 1 80154 78618 133516 XOR\n2 1 133516 133485 76826 XOR\n2 1 76826 3465 120040 XOR\n2 1 120040 120009 94943 XOR\n2 1 96991 94943 119978 XOR\n2 1 119978 119947 92915 XOR\n1 1 92915 36512 INV\n2 1 36512 119929 90906 XOR\n2 1 92915 119929 36456 XOR\n2 1 36456 36457 36455 AND\n2 1 36455 119929 119930 XOR\n1 1 119930 36460 INV\n2 1 94943 119947 36548 XOR\n2 1 36547 36548 36546 AND\n2 1 36546 119947 119948 XOR\n2 1 96992 119948 36550 XOR\n2 1 76826 120009 36637 XOR\n2 1 36637 36638 36636 AND\n2 1 36636 120009 120010 XOR\n2 1 3466 120010 36641 XOR\n2 1 2953 90906 107157 XOR\n2 1 107157 107126 3337 XOR\n2 1 90906 107126 14642 XOR\n2 1 14641 14642 14640 AND\n2 1 14640 107126 107127 XOR\n2 1 2954 107127 14644 XOR\n2 1 80154 133485 58230 XOR\n2 1 58230 58231 58229 AND\n2 1 58229 133485 133486 XOR\n2 1 78619 133486 58234 XOR\n2 1 81690 133609 58410 XOR\n2 1 77050 133609 58411 XOR\n2 1 58410 58411 58409 AND\n2 1 58409 133609 133610 XOR\n2 1 133641 133610 80155 XOR\n2 1 80155 78619 133517 XOR\n2 1 133517 133486 76827 XOR\n2 1 76827 3466 120041 XOR\n2 1 120041 120010 94944 XOR\n2 1 96992 94944 119979 XOR\n2 1 119979 119948 92916 XOR\n1 1 92916 36513 INV\n2 1 36513 119930 90907 XOR\n2 1 92916 119930 36459 XOR\n2 1 36459 36460 36458 AND\n2 1 36458 119930 36462 XOR\n2 1 94944 119948 36551 XOR\n2 1 36550 36551 36549 AND\n2 1 36549 119948 119949 XOR\n2 1 96993 119949 36553 XOR\n2 1 76827 120010 36640 XOR\n2 1 36640 36641 36639 AND\n2 1 36639 120010 120011 XOR\n2 1 3467 120011 36644 XOR\n2 1 2954 90907 107158 XOR\n2 1 107158 107127 3338 XOR\n2 1 90907 107127 14645 XOR\n2 1 14644 14645 14643 AND\n2 1 14643 107127 107128 XOR\n2 1 2955 107128 14647 XOR\n2 1 80155 133486 58233 XOR\n2 1 58233 58234 58232 AND\n2 1 58232 133486 133487 XOR\n2 1 78620 133487 58237 XOR\n2 1 81691 133610 58413 XOR\n2 1 77051 133610 58414 XOR\n2 1 58413 58414 58412 AND\n2 1 58412 133610 133611 XOR\n2 1 133642 133611 80156 XOR\n2 1 80156 78620 133518 XOR\n2 1 133518 133487 76828 XOR\n2 1 76828 3467 120042 XOR\n2 1 120042 120011 94945 XOR\n2 1 96993 94945 119980 XOR\n2 1 119980 119949 92917 XOR\n"]

end Verif.Data
